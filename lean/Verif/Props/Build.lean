import Verif.Model.Getopt
import Verif.Props.IoFiles
import Verif.Props.IoSpace
import Verif.Lemmas.Periph
import Verif.Lemmas.Decimal
import Verif.Props.Space

/-! # Spaces and peripheral spaces built from files: the numbers (C97, C98) -/

namespace Dissect
noncomputable section

/-- The parts of a successful `build`. -/
theorem build_parts {io : NumIO} {fs : Fs} {a : BuildArgs} {s : Space Str} (h : Space.build io fs a = .ok s) :
    ∃ data fmt content, a.data = some data ∧ a.format = some fmt ∧ (fmt = fmtDm ∨ fmt = fmtSm) ∧
      fs.read data = .ok content ∧ IndexOf s.id2row s.row2id ∧ IndexOf s.id2col s.col2id ∧ s.id2row ≠ [] ∧
      (if fmt = fmtSm then readSparse io content s.row2id s.col2id else readDense io content s.row2id) = .ok s.mat := by
  unfold Space.build at h
  cases hd : a.data with
  | none => rw [hd] at h; cases h
  | some data =>
    cases hf : a.format with
    | none => rw [hd, hf] at h; cases h
    | some fmt =>
      rw [hd, hf] at h
      simp only [] at h
      split at h
      · rename_i hfmt
        unfold buildWith at h
        simp only [bind_eq_ok] at h
        obtain ⟨r, hr, c, hc, ⟨id2row, rd⟩, hrd, m, hm, _, hck, hnew⟩ := h
        simp only [] at hm hnew hck
        obtain ⟨g1, g2, g3, g4, g5, g6, g7, g8⟩ := Space.new_eq_ok hnew
        have hrd' := (Space.resolveMap_eq_ok g6).2 rd rfl
        have hcd' := (Space.resolveMap_eq_ok g7).2 _ rfl
        have hrows : id2row ≠ [] ∧ IndexOf id2row rd := by
          cases r with
          | some x =>
            simp only [rowsOrData] at hrd
            injection hrd with hrd
            subst hrd
            cases hrw : a.rows with
            | none => rw [hrw] at hr; simp only [buildRows] at hr; injection hr with hr; cases hr
            | some f =>
              rw [hrw] at hr
              simp only [buildRows, bind_eq_ok] at hr
              obtain ⟨content, hread, ⟨l, d⟩, hx, hr⟩ := hr
              injection hr with hr
              injection hr with hr
              injection hr with e1 e2
              subst e1; subst e2
              obtain ⟨k1, k2, k3⟩ := extractFirst_eq_ok hx
              exact ⟨k1, k3⟩
          | none =>
            simp only [rowsOrData, bind_eq_ok] at hrd
            obtain ⟨content, hread, hx⟩ := hrd
            obtain ⟨k1, k2, k3⟩ := extractFirst_eq_ok hx
            exact ⟨k1, k3⟩
        have hcols : IndexOf (c.getD ([], Dict.empty)).1 (c.getD ([], Dict.empty)).2 := by
          cases c with
          | none =>
            intro w v
            simp [Dict.empty, Dict.get?]
          | some x =>
            cases hcw : a.cols with
            | none =>
              rw [hcw] at hc
              simp only [buildCols] at hc
              split at hc
              · cases hc
              · injection hc with hc; cases hc
            | some f =>
              rw [hcw] at hc
              simp only [buildCols, bind_eq_ok] at hc
              obtain ⟨content, hread, ⟨l, d⟩, hx, hc⟩ := hc
              injection hc with hc
              injection hc with hc
              subst hc
              exact (extractFirst_eq_ok hx).2.2
        simp only [buildMat, bind_eq_ok] at hm
        obtain ⟨content, hread, hm⟩ := hm
        refine ⟨data, fmt, content, rfl, rfl, hfmt, hread, ?_, ?_, ?_, ?_⟩
        · rw [g2, hrd']; exact hrows.2
        · rw [g3, hcd']; exact hcols
        · rw [g2]; exact hrows.1
        · rw [hrd', hcd', g1]
          split at hm
          · rename_i h; rw [if_pos h]; exact hm
          · rename_i h; rw [if_neg h]; exact hm
      · cases h

/-- **C97** A space built from an `sm` file: the component of word `w` in the dimension labelled `c` is the sum of the
counts that the data file gives for `(w, c)`, and every line of the file is well formed. -/
theorem C97_sm {io : NumIO} {fs : Fs} {a : BuildArgs} {s : Space Str} {data content : Str}
    (h : Space.build io fs a = .ok s) (hf : a.format = some "sm".toList) (hd : a.data = some data)
    (hread : fs.read data = .ok content) :
    (∀ t ∈ records content, GoodSm io s.id2row s.id2col t) ∧
    ∀ i j w c, s.id2row[i]? = some w → s.id2col[j]? = some c → s.mat.val.get i j = cellSum io content w c := by
  obtain ⟨data', fmt, content', p1, p2, _, p4, p5, p6, _, p8⟩ := build_parts h
  rw [hd] at p1
  injection p1 with p1
  subst p1
  rw [hf] at p2
  injection p2 with p2
  rw [hread] at p4
  injection p4 with p4
  subst p4
  rw [if_pos (by rw [← p2]; rfl)] at p8
  have hg : ∀ t ∈ records content, GoodSm io s.id2row s.id2col t := by
    by_contra hcon
    push Not at hcon
    rw [readSparse_bad p5 p6 hcon] at p8
    cases p8
  refine ⟨hg, ?_⟩
  obtain ⟨m, m1, _, _, _, m5⟩ := readSparse_good (io := io) p5 p6 hg
  rw [m1] at p8
  injection p8 with p8
  rw [← p8]
  exact m5

/-- **C97** A space built from a `dm` file: the components of word `w` are the numbers of the first line that starts
with `w`, zeros if there is none. -/
theorem C97_dm {io : NumIO} {fs : Fs} {a : BuildArgs} {s : Space Str} {data content : Str}
    (h : Space.build io fs a = .ok s) (hf : a.format = some "dm".toList) (hd : a.data = some data)
    (hread : fs.read data = .ok content) :
    ∀ i j w, s.id2row[i]? = some w → j < s.mat.nc → s.mat.val.get i j = dmValue io content w j := by
  obtain ⟨data', fmt, content', p1, p2, _, p4, p5, _, p7, p8⟩ := build_parts h
  rw [hd] at p1
  injection p1 with p1
  subst p1
  rw [hf] at p2
  injection p2 with p2
  rw [hread] at p4
  injection p4 with p4
  subst p4
  rw [if_neg (by rw [← p2]; decide)] at p8
  obtain ⟨e1, e2⟩ := C57_errors (io := io) p5 content
  cases hl : fileLines content with
  | nil => rw [e1 hl] at p8; cases p8
  | cons first rest =>
    have hno := fun hbad => e2 first rest hl hbad
    have hlen : ¬ (split first).length < 2 := fun hb => by rw [hno (Or.inl hb)] at p8; cases p8
    have hrec : ∀ t ∈ records content, t.length = (split first).length := by
      intro t ht
      by_contra hb
      rw [hno (Or.inr (Or.inl ⟨t, ht, hb⟩))] at p8; cases p8
    have hnum : ∀ w ∈ s.id2row, ∀ t, firstRecord content w = some t → ∀ x ∈ t.tail, io.parse x ≠ none := by
      intro w hw t ht x hx hb
      rw [hno (Or.inr (Or.inr ⟨w, hw, t, ht, x, hx, hb⟩))] at p8; cases p8
    obtain ⟨m, m1, _, _, m4, m5⟩ := C57_first_record (io := io) p5 p7 hl (n := (split first).length - 1) (by omega)
      (by omega) (fun t ht => by rw [hrec t ht]; omega) hnum
    rw [m1] at p8
    injection p8 with p8
    rw [← p8]
    intro i j w hi hj
    exact m5 i j w hi (by rw [← m4]; exact hj)

/-- **C97** Reading an `sm` file succeeds whenever the files are there, the label files have a non-blank line and all
lines of the data file are well formed. -/
theorem C97_sm_succeeds {io : NumIO} {fs : Fs} {data cols dc cc : Str} {rows : Option Str}
    (h1 : fs.read data = .ok dc) (h2 : fs.read cols = .ok cc) (h3 : records cc ≠ [])
    (h4 : ∃ src rc, (rows = some src ∨ (rows = none ∧ src = data)) ∧ fs.read src = .ok rc ∧ records rc ≠ [] ∧
      ∀ t ∈ records dc, GoodSm io ((records rc).filterMap List.head?) ((records cc).filterMap List.head?) t) :
    ∃ s, Space.build io fs ⟨some data, some "sm".toList, rows, some cols⟩ = .ok s := by
  obtain ⟨src, rc, hsrc, hrr, hrn, hg⟩ := h4
  obtain ⟨rl, rd, r1, r2, r3⟩ := extractFirst_ok hrn
  obtain ⟨cl, cd, c1, c2, c3⟩ := extractFirst_ok h3
  have hgood : ∀ t ∈ records dc, GoodSm io rl cl t := by
    intro t ht
    obtain ⟨a, b, x, rest, e, he⟩ := hg t ht
    exact ⟨a, b, x, rest, e, fun ha hb => he ((r2.mem a).1 ha) ((c2.mem b).1 hb)⟩
  obtain ⟨m, m1, _, m3, m4, _⟩ := readSparse_good (io := io) r3 c3 hgood
  have hrl : rl ≠ [] := (extractFirst_eq_ok r1).1
  have hlr : Labels rl rd := r3.labels
  have hlc : Labels cl cd := c3.labels
  unfold Space.build
  simp only []
  rw [if_pos (by right; rfl)]
  have hcols : buildCols fs "sm".toList (some cols) = .ok (some (cl, cd)) := by
    simp only [buildCols, h2, ok_bind, c1]; rfl
  have hmat : buildMat io fs "sm".toList data rd cd = .ok m := by
    simp only [buildMat, h1, ok_bind]
    rw [if_pos (by rfl)]; exact m1
  rcases hsrc with rfl | ⟨rfl, rfl⟩
  · have hrows : buildRows fs (some src) = .ok (some (rl, rd)) := by
      simp only [buildRows, hrr, ok_bind, r1]; rfl
    exact ⟨_, buildWith_ok hrows hcols rfl rfl hmat hlr hlc m3 (fun _ => m4)⟩
  · have hrd : rowsOrData fs src none = .ok (rl, rd) := by
      simp only [rowsOrData, hrr, ok_bind, r1]
    exact ⟨_, buildWith_ok rfl hcols hrd rfl hmat hlr hlc m3 (fun _ => m4)⟩

/-- **C98** What `PeripheralSpace.build` does with the columns, for a core that no transformation was applied to: the
labels are the core's, and the numbers under the `j`-th of them are the counts for the `j`-th label of the column
file. -/
theorem C98_positional {io : NumIO} {fs : Fs} {core : Space Str} {a : BuildArgs} {p : Space Str} {data content : Str}
    (h : Periph.build io fs core a = .ok p) (hops : core.ops = []) (hf : a.format = some "sm".toList)
    (hd : a.data = some data) (hread : fs.read data = .ok content) :
    p.id2col = core.id2col ∧
    ∃ colF cc cl, a.cols = some colF ∧ fs.read colF = .ok cc ∧ FirstOcc ((records cc).filterMap List.head?) cl ∧
      p.mat.nc = cl.length ∧
      ∀ i j w c, p.id2row[i]? = some w → cl[j]? = some c → p.mat.val.get i j = cellSum io content w c := by
  unfold Periph.build at h
  rw [bind_eq_ok] at h
  obtain ⟨sp, hsp, h⟩ := h
  obtain ⟨k1, k2, k3, _, _, _, _⟩ := periphNew_eq_ok h
  rw [hops] at k1 k2
  obtain k1 := ok_inj k1
  obtain k2 := ok_inj k2
  injection k2 with k2 _
  obtain ⟨_, _, _, _, c1, c2⟩ := C63_built_space hsp
  cases hc : a.cols with
  | none =>
    have := (c1 hc).2.2
    rw [hf] at this
    exact absurd this (by decide)
  | some colF =>
    obtain ⟨cc, e1, e2, _, _, e5⟩ := c2 colF hc
    refine ⟨k2.symm, colF, cc, sp.id2col, rfl, e1, e2, by rw [← k1]; exact e5.symm, ?_⟩
    intro i j w c hi hj
    rw [k3] at hi
    rw [← k1]
    exact (C97_sm hsp hf hd hread).2 i j w c hi hj

/-- **C98, the part that holds**: when the column file lists exactly the core's columns in the core's order, the
component of `w` in the core's dimension `c` is the sum of the counts that the data file gives for `(w, c)`. -/
theorem C98_partial {io : NumIO} {fs : Fs} {core : Space Str} {a : BuildArgs} {p : Space Str} {data content colF cc : Str}
    (h : Periph.build io fs core a = .ok p) (hops : core.ops = []) (hf : a.format = some "sm".toList)
    (hd : a.data = some data) (hread : fs.read data = .ok content) (hc : a.cols = some colF)
    (hcols : fs.read colF = .ok cc) (hsame : (records cc).filterMap List.head? = core.id2col) (hn : core.id2col.Nodup) :
    p.id2col = core.id2col ∧
    ∀ i j w c, p.id2row[i]? = some w → p.id2col[j]? = some c → p.mat.val.get i j = cellSum io content w c := by
  obtain ⟨h1, colF', cc', cl, e1, e2, e3, _, e5⟩ := C98_positional h hops hf hd hread
  rw [hc] at e1
  injection e1 with e1
  subst e1
  rw [hcols] at e2
  injection e2 with e2
  subst e2
  rw [hsame] at e3
  have := e3.eq_of_nodup hn
  subst this
  rw [h1]
  exact ⟨rfl, e5⟩

/-- Two files: the counts and, in another order than the core's, the columns. -/
def exPerFs : Fs := ⟨[cs!"home"], [[], [cs!"home"]],
  ((Dict.empty).set [cs!"home", cs!"d.sm"] cs!"w a 5\n").set [cs!"home", cs!"d.cols"] cs!"b\na\n"⟩

/-- Building from those files succeeds: the hypotheses of **C97** are met. -/
theorem exPer_build : ∃ s, Space.build decIO exPerFs ⟨some cs!"d.sm", some "sm".toList, none, some cs!"d.cols"⟩ = .ok s := by
  have hrec : records cs!"w a 5\n" = [[cs!"w", cs!"a", cs!"5"]] := by decide
  have hrec2 : records cs!"b\na\n" = [[cs!"b"], [cs!"a"]] := by decide
  refine C97_sm_succeeds (dc := cs!"w a 5\n") (cc := cs!"b\na\n") rfl rfl (by rw [hrec2]; simp) ?_
  refine ⟨cs!"d.sm", cs!"w a 5\n", Or.inr ⟨rfl, rfl⟩, rfl, by rw [hrec]; simp, ?_⟩
  rw [hrec]
  intro t ht
  simp only [List.mem_cons, List.not_mem_nil, or_false] at ht
  subst ht
  exact ⟨_, _, _, _, rfl, fun _ _ => parseDec_ne_none (c := '5') (t := []) (by decide) (by decide)⟩

/-- **C98 is false of the code**: with the column file `b, a` and a core whose columns are `a, b`, the count of `(w, a)`
is stored under the core's column `b`, and the core's column `a` gets nothing. -/
theorem C98_refuted : ∃ (fs : Fs) (core : Space Str) (a : BuildArgs) (p : Space Str) (content : Str),
    core.WF ∧ core.ops = [] ∧ a.format = some "sm".toList ∧ (∃ data, a.data = some data ∧ fs.read data = .ok content) ∧
    Periph.build decIO fs core a = .ok p ∧
    ¬ ∀ i j w c, p.id2row[i]? = some w → p.id2col[j]? = some c → p.mat.val.get i j = cellSum decIO content w c := by
  obtain ⟨core, hcore⟩ := (C01_accepts_iff (⟨.sparse, Mat.of 1 2 (fun _ _ => (1 : ℝ))⟩ : TMat ℝ) [cs!"x"] [cs!"a", cs!"b"] none none [] none).2
    ⟨by simp, by simp, by simp, by simp, rfl, fun _ => rfl, by simp⟩
  obtain ⟨h0, h1, h2, h3, h4, h5, _⟩ := C01_result _ _ _ _ _ _ _ core hcore
  obtain ⟨sp, hsp⟩ := exPer_build
  have hrec : records cs!"w a 5\n" = [[cs!"w", cs!"a", cs!"5"]] := by decide
  have hrec2 : records cs!"b\na\n" = [[cs!"b"], [cs!"a"]] := by decide
  obtain ⟨w1, w2, _, ⟨src, rc, hs1, hs2, hs3, hs4⟩, _, w6⟩ := C63_built_space hsp
  obtain ⟨cc, c1, c2, c3, _, c5⟩ := w6 _ rfl
  have hcc : cc = cs!"b\na\n" := by
    have : exPerFs.read cs!"d.cols" = .ok cs!"b\na\n" := rfl
    rw [this] at c1; injection c1 with c1; exact c1.symm
  subst hcc
  rw [hrec2] at c2
  have hcl := c2.eq_of_nodup (by decide)
  have hrc : rc = cs!"w a 5\n" := by
    rcases hs1 with hs1 | ⟨_, hs1⟩
    · cases hs1
    · injection hs1 with hs1
      subst hs1
      have : exPerFs.read cs!"d.sm" = .ok cs!"w a 5\n" := rfl
      rw [this] at hs2; injection hs2 with hs2; exact hs2.symm
  subst hrc
  rw [hrec] at hs3
  have hrl := hs3.eq_of_nodup (by decide)
  have hlr := hs4.labels
  have hp : Periph.new core sp.mat sp.id2row (some sp.row2id) =
      .ok ⟨sp.mat, sp.id2row, core.id2col, sp.row2id, core.col2id, core.ops, [sp.mat.nc]⟩ := by
    refine periphNew_ok (by rw [h4]; rfl) (by rw [h4]; rfl) (Space.resolveMap_some hlr) ?_
    rw [Space.shapeCheck_ok_iff hlr h0.cols]
    refine ⟨w1.nrows, fun _ => ?_⟩
    rw [← c5, hcl, h3]; rfl
  have hb : Periph.build decIO exPerFs core ⟨some cs!"d.sm", some "sm".toList, none, some cs!"d.cols"⟩ =
      .ok ⟨sp.mat, sp.id2row, core.id2col, sp.row2id, core.col2id, core.ops, [sp.mat.nc]⟩ := by
    unfold Periph.build
    rw [hsp, ok_bind, hp]
  refine ⟨exPerFs, core, _, _, cs!"w a 5\n", h0, h4, rfl, ⟨_, rfl, rfl⟩, hb, ?_⟩
  intro hcon
  have v1 := hcon 0 0 cs!"w" cs!"a" (by show sp.id2row[0]? = _; rw [hrl]; rfl) (by show core.id2col[0]? = _; rw [h3]; rfl)
  have v2 := (C97_sm hsp rfl rfl (content := cs!"w a 5\n") rfl).2 0 0 cs!"w" cs!"b" (by rw [hrl]; rfl) (by rw [hcl]; rfl)
  simp only [] at v1
  rw [v1] at v2
  unfold cellSum at v2
  rw [hrec] at v2
  simp only [List.map_cons, List.map_nil, List.sum_cons, List.sum_nil, recordCount, and_self, if_true] at v2
  rw [if_neg (by decide)] at v2
  have h5 : decIO.parse cs!"5" = some 5 := by
    show parseDec ['5'] = some 5
    rw [parseDec, if_neg (by decide)]
    unfold parseUnsigned
    simp only []
    rw [if_pos (by decide)]
    have e1 : (['5'] : Str).takeWhile (fun c => decide (c ≠ '.')) = ['5'] := by decide
    have e2 : (['5'] : Str).dropWhile (fun c => decide (c ≠ '.')) = [] := by decide
    rw [e1, e2]
    have e3 : evalDigits ['5'] = 5 := by decide
    rw [e3]
    simp [evalDigits]
  rw [h5] at v2
  norm_num at v2

end
end Dissect
