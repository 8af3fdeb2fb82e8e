import Verif.Examples.Runs
import Verif.Props.CoreTotal

/-! # Runs of `build_core_space` and `build_peripheral_space` with SVD and NMF -/

namespace Dissect
noncomputable section
namespace Examples

theorem zoo_plain : Plain zoo := ⟨zoo_wf, by show 0 < (exMat .dense).val.nr; decide, zoo_cols, by decide⟩

theorem zoo_nonneg : NonNegative zoo.mat.val := exMat_nonneg _

/-- The reductions of the runs below. -/
def rs3 : List (Option Str) := [some cs!"svd_2", some cs!"nmf_1", none]

theorem plog_only {a : List Trans} (h : WMeans (some cs!"plog") a) : a = [.scaling .plog] := by
  cases h with
  | skip h => exact absurd rfl (h (cs!"plog", .plog) (by decide))
  | named h =>
    simp only [weightingTable, List.mem_cons, Prod.mk.injEq, List.not_mem_nil, or_false] at h
    rcases h with ⟨h, _⟩ | ⟨h, _⟩ | ⟨h, _⟩ | ⟨_, rfl⟩
    · simp at h
    · simp at h
    · simp at h
    · rfl

/-- `plog` of the example: the value of `cat` in column `c` is `log 5`. -/
theorem plog_zoo {s : Space Str} (h : zoo.apply idealEnv (.scaling .plog) = .ok s) :
    s.mat.nr = 2 ∧ s.mat.nc = 3 ∧ s.mat.val.get 1 2 = Real.log 5 := by
  obtain ⟨-, r, h2, h3⟩ := plain_scaling zoo_plain h
  obtain ⟨r', e1, e2, e3, e4, e5⟩ := C17_plog zoo.mat zoo_plain.rows zoo_plain.cols
  have h2' : plogWeighting zoo.mat = .ok r := h2
  rw [h2'] at e1
  obtain rfl := ok_inj e1
  rw [h3]
  refine ⟨e3, e4, ?_⟩
  rw [e5 1 2 (by show 1 < 2; decide) (by show 2 < 3; decide)]
  have : zoo.mat.val.get 1 2 = 5 := by
    show (exMat .dense).val.get 1 2 = 5
    rw [exMat, Mat.of_get_lt (by decide) (by decide)]
    norm_num
  beta_reduce
  rw [this, if_pos (by norm_num)]

theorem log_five : (1 : ℝ) / 10 ^ 12 < |Real.log 5| := by
  have h := Real.one_sub_inv_le_log_of_pos (x := 5) (by norm_num)
  refine lt_of_lt_of_le ?_ (le_abs_self _)
  refine lt_of_lt_of_le ?_ h
  norm_num

theorem rs3_ok (M : PyObj) (i j k : ℕ) (c : Choice) (hi : [some cs!"plog"][i]? = some c.w) (hj : [(none : Option Str)][j]? = some c.s)
    (_ : rs3[k]? = some c.r) : ReductionOk idealEnv zoo c ((demoLib zoo M).chance i j k) := by
  intro a b s ha hb happ
  have hw := List.mem_of_getElem? hi
  have hs := List.mem_of_getElem? hj
  rw [List.mem_singleton] at hw hs
  rw [hw] at ha
  rw [hs, sskip (Or.inl rfl)] at hb
  obtain rfl := plog_only ha
  subst hb
  rw [List.append_nil, applyAll_single] at happ
  obtain ⟨h1, h2, h3⟩ := plog_zoo happ
  refine ⟨fun n _ => ?_, fun n _ => ?_⟩
  · exact Reducible.of_entry (i := 1) (j := 2) (by rw [h1]; decide) (by rw [h2]; decide) (by rw [h3]; exact log_five)
  · refine ⟨fun _ => ?_, fun _ => ?_, fun _ x hx => ?_, fun _ x hx => ?_⟩
    · rw [h2]; rfl
    · rw [h1]; rfl
    · rw [h2]; rw [List.mem_singleton.1 hx]; decide
    · rw [h1]; rw [List.mem_singleton.1 hx]; decide

theorem rs3_documented (ch : Choice) (h : choices [some cs!"plog"] [none] rs3 [some cs!"row"] ch) : ch.Documented := by
  obtain ⟨w, t, r, n⟩ := ch
  obtain ⟨hw, hs, hr, hn⟩ := h
  simp only [rs3, List.mem_cons, List.not_mem_nil, or_false] at hw hs hr hn
  subst hw hs hn
  refine ⟨Or.inr ⟨_, by simp, .named (sc := .plog) (by decide)⟩, Or.inl (Or.inl rfl), ?_,
    Or.inr ⟨_, by simp, .named (sc := .rowNorm .length) (by decide)⟩⟩
  rcases hr with rfl | rfl | rfl
  · exact Or.inr ⟨_, by simp, .svd (d := cs!"2") (k := 2) (by decide) rfl (by decide)⟩
  · exact Or.inr ⟨_, by simp, .nmf (d := cs!"1") (k := 1) ⟨fun _ => [0], fun _ => [0], fun _ => false⟩ (by decide) rfl (by decide)⟩
  · exact Or.inl (Or.inl rfl)

theorem rs3_free (ch : Choice) (h : choices [some cs!"plog"] [none] rs3 [some cs!"row"] ch) :
    demoFs.resolve (coreFile cs!"/out/x" cs!"in" ch ++ cs!".pkl") ∉ demoFs.dirs := by
  obtain ⟨w, t, r, n⟩ := ch
  obtain ⟨hw, hs, hr, hn⟩ := h
  simp only [rs3, List.mem_cons, List.not_mem_nil, or_false] at hw hs hr hn
  subst hw hs hn
  rw [demoFs_dirs]
  rcases hr with rfl | rfl | rfl <;> decide

/-- The option values `plog`; none; `svd_2`, `nmf_1` or nothing; `row` on the space of the examples. -/
theorem rs3_run (M : PyObj) : ∃ fs', buildSpaces (demoLib zoo M) demoFs cs!"/data/in" cs!"pkl" cs!"/out/x" none [some cs!"plog"]
      [none] rs3 [some cs!"row"] false = .ok fs' ∧ ∀ c, choices [some cs!"plog"] [none] rs3 [some cs!"row"] c →
      ∃ res, c.Result idealEnv zoo res ∧ fs'.read (coreFile cs!"/out/x" cs!"in" c ++ cs!".pkl") =
        .ok ((demoLib zoo M).dump (.space res)) :=
  C134_core_succeeds idealEnv_ideal in_base rs3_documented (by simp) (by simp [rs3]) (by simp) (.pickle (in_pkl_any M))
    zoo_plain zoo_nonneg (rs3_ok M) demo_out rs3_free

/-- The choice `plog`, `svd_2`, `row`. -/
def svdChoice : Choice := ⟨some cs!"plog", none, some cs!"svd_2", some cs!"row"⟩

theorem svdChoice_in : choices [some cs!"plog"] [none] rs3 [some cs!"row"] svdChoice :=
  ⟨by simp [svdChoice], by simp [svdChoice], by simp [svdChoice, rs3], by simp [svdChoice]⟩

theorem svdChoice_result {res : Space Str} (h : svdChoice.Result idealEnv zoo res) :
    zoo.applyAll idealEnv [.scaling .plog, .dimred (.svd 2), .scaling (.rowNorm .length)] = .ok res := by
  obtain ⟨a, b, d, e, ha, hb, hd, he, happ⟩ := h
  obtain rfl := plog_only ha
  have hb' : SMeans none b := hb
  rw [sskip (Or.inl rfl)] at hb'
  subst hb'
  have hd' : d = [.dimred (.svd 2)] := by
    have hd : RMeans (some cs!"svd_2") d := hd
    generalize hr : some cs!"svd_2" = r at hd
    cases hd with
    | @svd d k h1 h2 h3 =>
      have : d = cs!"2" := by simpa using hr.symm
      subst this
      have : ((2 : ℕ) : ℤ) = (k : ℤ) := ok_inj (show Except.ok ((2 : ℕ) : ℤ) = Except.ok (k : ℤ) from h2)
      obtain rfl : 2 = k := by exact_mod_cast this
      rfl
    | nmf ch h1 h2 h3 => simp at hr
    | skip h => exact absurd hr.symm (h cs!"svd_" (by simp) cs!"2" (by decide))
  have he' : e = [.scaling (.rowNorm .length)] := by
    have he : NMeans (some cs!"row") e := he
    cases he with
    | skip h => exact absurd rfl (h (cs!"row", .rowNorm .length) (by decide))
    | named h =>
      simp only [normalizationTable, List.mem_cons, Prod.mk.injEq, List.not_mem_nil, or_false] at h
      rcases h with ⟨_, rfl⟩ | ⟨h, _⟩
      · rfl
      · simp at h
  subst hd' he'
  exact happ

theorem svd_stem : IsStem (coreFile cs!"/out/x" cs!"in" svdChoice ++ cs!".pkl") cs!"CORE_SS.in.plog.svd_2.row" :=
  ⟨cs!"CORE_SS.in.plog.svd_2.row.pkl", ⟨by decide, Or.inr ⟨cs!"/out/x", rfl⟩⟩, Or.inl ⟨cs!"pkl", by decide, rfl⟩⟩

/-- The core space with `plog`, `svd_2` and `row` is stored, and projecting the input through it gives it again. -/
example : ∃ (L : Lib) (fs1 fs3 : Fs) (core p : Space Str),
    buildSpaces L demoFs cs!"/data/in" cs!"pkl" cs!"/out/x" none [some cs!"plog"] [none] rs3 [some cs!"row"] false = .ok fs1 ∧
    buildPeriph L fs1 cs!"/data/in" cs!"pkl" cs!"/out/x" none cs!"/out/x/CORE_SS.in.plog.svd_2.row.pkl" false = .ok fs3 ∧
    fs3.read cs!"/out/x/PER_SS.in.CORE_SS.in.plog.svd_2.row.pkl" = .ok (L.dump (.space p)) ∧
    zoo.applyAll idealEnv [.scaling .plog, .dimred (.svd 2), .scaling (.rowNorm .length)] = .ok core ∧
    p.id2row = core.id2row ∧ p.id2col = core.id2col ∧ p.mat = core.mat := by
  obtain ⟨_, _, h0⟩ := rs3_run sumModel
  obtain ⟨core, h0, -⟩ := h0 _ svdChoice_in
  have happ := svdChoice_result h0
  set L := demoLib zoo (.space core) with hL
  obtain ⟨fs1, h1, h2⟩ := C134_core_then_peripheral (L := L) idealEnv_ideal in_base rs3_documented (by simp) (by simp [rs3])
    (by simp) (.pickle (gz := false) (in_pkl_any _)) zoo_plain zoo_nonneg rfl (rs3_ok _) demo_out rs3_free
  have hread : fs1.read (coreFile cs!"/out/x" cs!"in" svdChoice ++ cs!".pkl") = .ok (L.dump (.space core)) := by
    obtain ⟨fs', k1, k2⟩ := rs3_run (.space core)
    obtain rfl := ok_inj (h1.symm.trans k1)
    obtain ⟨res, k3, k4⟩ := k2 _ svdChoice_in
    obtain rfl := ok_inj (happ.symm.trans (svdChoice_result k3))
    exact k4
  have hundump : ∀ o, L.dump (.space core) = L.dump o → L.undump (L.dump o) = some o := by
    intro o ho
    simp only [hL, demoLib] at ho ⊢
    by_cases h1 : PyObj.space core = .space zoo
    · rw [if_pos h1] at ho
      by_cases h2 : o = .space zoo
      · rw [if_pos h2, if_pos rfl, h2]
      · rw [if_neg h2] at ho
        split at ho <;> simp at ho
    · rw [if_neg h1, if_true] at ho
      by_cases h2 : o = .space zoo
      · rw [if_pos h2] at ho
        simp at ho
      · rw [if_neg h2] at ho
        by_cases h3 : o = .space core
        · rw [if_neg h2, if_pos h3, if_neg (by decide), if_pos rfl, h3]
        · rw [if_neg h3] at ho
          simp at ho
  have hkeep : fs1.read cs!"/data/in.pkl" = .ok cs!"S" := by
    refine (C67_other_files in_base h1 ?_).trans (show demoFs.read cs!"/data/in.pkl" = .ok cs!"S" from rfl)
    rintro ⟨w, t, r, n⟩ ⟨hw, hs, hr, hn⟩ e he
    simp only [rs3, List.mem_cons, List.not_mem_nil, or_false] at hw hs hr hn
    subst hw hs hn
    revert e
    rcases hr with rfl | rfl | rfl <;> decide
  obtain ⟨d1, d2, d3⟩ : OutDir fs1 (demoFs.resolve (cs!"/out/x" ++ ['/'])) ∧ fs1.cwd = demoFs.cwd ∧
      ∀ d ∈ fs1.dirs, d ∈ demoFs.dirs ∨ d <+: demoFs.resolve (cs!"/out/x" ++ ['/']) := by
    obtain ⟨fs', k1, k2⟩ := buildSpaces_total (L := L) in_base rs3_documented (by simp) (by simp [rs3])
      (by simp) (.pickle (gz := false) (in_pkl_any _)) (fun i j k c hi hj hk _ a b d e ha hb hd hch he =>
        choice_total idealEnv_ideal zoo_plain zoo_nonneg (rs3_ok _ i j k c hi hj hk) ha hb hd hch he) demo_out rs3_free
    obtain rfl := ok_inj (h1.symm.trans k1)
    exact k2
  obtain ⟨fs3, core', p, g1, g2, g3, g4⟩ := h2 svdChoice svdChoice_in (by
      intro d _ hd
      simp [svdChoice] at hd)
    (fun o ho => hundump o (ok_inj (hread.symm.trans ho))) fs1 cs!"/out/x" cs!"CORE_SS.in.plog.svd_2.row"
    (.pickle ⟨cs!"S", hkeep, by simp [hL, demoLib]⟩) rfl svd_stem
    (by rw [Fs.resolve_cwd d2]; exact d1) (by
      rw [Fs.resolve_cwd d2]
      intro hd
      rcases d3 _ hd with hd | hd
      · revert hd; rw [demoFs_dirs]; decide
      · revert hd; decide)
  obtain rfl := ok_inj (happ.symm.trans (svdChoice_result g2))
  exact ⟨L, fs1, fs3, _, p, h1, g1, g3, happ, g4⟩

/-- C134_svd_dense and C134_svd_sparse on the matrix of the examples (it has an entry 2), and on a zero matrix. -/
example : (∃ red V, (DimRedT.svd 2).apply idealEnv ⟨.dense, (exMat .dense).val⟩ = .ok (red, V) ∧ 0 < red.nc ∧ red.nc ≤ 2) ∧
    (∃ red V, (DimRedT.svd 2).apply idealEnv ⟨.sparse, (exMat .sparse).val⟩ = .ok (red, V) ∧ 0 < red.nc ∧ red.nc ≤ 2) ∧
    (DimRedT.svd 2).apply idealEnv ⟨.dense, Mat.of 1 1 (fun _ _ => 0)⟩ = .error .valueError := by
  have h1 : ∀ ty, (1 : ℝ) / 10 ^ 12 < |(⟨ty, (exMat ty).val⟩ : TMat ℝ).val.get 0 1| := by
    intro ty
    simp only [exMat, Mat.of_get]
    norm_num
  obtain ⟨a1, -⟩ := C134_svd_dense idealEnv_ideal (m := ⟨.dense, (exMat .dense).val⟩) rfl (by decide) (by decide) (k := 2)
    (by omega)
  obtain ⟨r, V, e1, -, e2, e3, -⟩ := a1 ((Reducible.of_entry (m := ⟨.dense, (exMat .dense).val⟩) (i := 0) (j := 1) (by decide)
    (by decide) (h1 .dense)).1 rfl)
  obtain ⟨r', V', f1, -, f2, f3, -⟩ := C134_svd_sparse idealEnv_ideal (m := ⟨.sparse, (exMat .sparse).val⟩) rfl (i := 0) (j := 1)
    (by decide) (by decide) (by
      have := h1 .sparse
      intro h
      rw [h] at this
      norm_num at this) (k := 2) (by omega)
  obtain ⟨-, b2⟩ := C134_svd_dense idealEnv_ideal (m := ⟨.dense, Mat.of 1 1 (fun _ _ => (0 : ℝ))⟩) rfl (by decide) (by decide)
    (k := 2) (by omega)
  refine ⟨⟨r, V, e1, e2, e3⟩, ⟨r', V', f1, f2, f3⟩, b2 ?_⟩
  rintro ⟨x, hx, h⟩
  simp [Mat.of_get] at h
  norm_num at h

/-- C96_nndsvd_dense_iff on the matrix of the examples and on a zero matrix. -/
example : (∃ u s v w h, svd idealEnv (exMat .dense) 2 = .ok (u, s, v) ∧ nndsvdInit idealEnv (exMat .dense) 2 = .ok (w, h) ∧
      NndsvdStart (exMat .dense) u s.data v 2 w h) ∧
    nndsvdInit idealEnv ⟨.dense, Mat.of 1 1 (fun _ _ => 0)⟩ 2 = .error .valueError := by
  obtain ⟨a1, -⟩ := C96_nndsvd_dense_iff idealEnv_ideal (m := exMat .dense) rfl (exMat_nonneg .dense) (by decide) (by decide)
    (k := 2) (by omega)
  obtain ⟨-, b2⟩ := C96_nndsvd_dense_iff idealEnv_ideal (m := ⟨.dense, Mat.of 1 1 (fun _ _ => (0 : ℝ))⟩) rfl
    (by intro i j _ _; simp [Mat.of_get]) (by decide) (by decide) (k := 2) (by omega)
  obtain ⟨u, s, v, w, h, e1, -, -, e2, e3⟩ := a1 ((Reducible.of_entry (m := exMat .dense) (i := 0) (j := 1) (by decide)
    (by decide) (by simp only [exMat, Mat.of_get]; norm_num)).1 rfl)
  refine ⟨⟨u, s, v, w, h, e1, e2, e3⟩, b2 ?_⟩
  rintro ⟨x, hx, h⟩
  simp [Mat.of_get] at h
  norm_num at h

end Examples
end
end Dissect
