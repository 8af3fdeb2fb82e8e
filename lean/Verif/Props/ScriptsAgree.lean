import Verif.Props.SimsTotal

/-! # C148: `compute_neighbours.py` and `compute_similarities.py` print the same scores -/

namespace Dissect
noncomputable section

/-- What `compute_neighbours.py` prints for a word: the word on a line of its own, then one indented line for each entry
(a neighbour and its score). -/
def blockText (word : Str) (entries : List (Str × Str)) : Str :=
  word ++ '\n' :: (entries.map (fun e => '\t' :: e.1 ++ ' ' :: e.2 ++ ['\n'])).flatten

/-- What `compute_similarities.py` prints for a line: the line and the score. -/
def scoreText (line score : Str) : Str := line ++ ' ' :: score ++ ['\n']

theorem blocks_entries {L : Lib} {s : Space Str} {s2 : Option (Space Str)} {sim : Sim} {n : ℤ} :
    ∀ {ws bs : List Str}, List.Forall₂ (NeighbourBlock L s s2 sim n) ws bs →
      ∃ es : List (List (Str × Str)), es.length = ws.length ∧ bs = List.zipWith blockText ws es ∧
        ∀ (k : ℕ) (w : Str) (e : List (Str × Str)), ws[k]? = some w → es[k]? = some e →
          ∃ ns, s.getNeighbours w n sim s2 = .ok ns ∧ e = ns.map (fun p => (p.1, L.strNum p.2)) := by
  intro ws bs h
  induction h with
  | nil => exact ⟨[], rfl, rfl, by simp⟩
  | cons h1 _ ih =>
    obtain ⟨es, e1, e2, e3⟩ := ih
    obtain ⟨ns, n1, n2⟩ := h1
    refine ⟨ns.map (fun p => (p.1, L.strNum p.2)) :: es, by simp [e1], ?_, ?_⟩
    · rw [List.zipWith_cons_cons, ← e2, n2]
      simp [blockText, List.map_map, Function.comp_def]
    · intro k w e hw he
      cases k with
      | zero =>
        simp only [List.getElem?_cons_zero, Option.some.injEq] at hw he
        subst hw he
        exact ⟨ns, n1, rfl⟩
      | succ k => exact e3 k w e (by simpa using hw) (by simpa using he)

theorem lines_scores {L : Lib} {s : Space Str} {s2 : Option (Space Str)} {sim : Sim} {i j : ℕ} :
    ∀ {ls os : List Str}, List.Forall₂ (SimLine L s s2 sim i j) ls os →
      ∃ ss : List Str, ss.length = ls.length ∧ os = List.zipWith scoreText ls ss ∧
        ∀ (k : ℕ) (l t : Str), ls[k]? = some l → ss[k]? = some t →
          ∃ w1 w2 x, (split l)[i]? = some w1 ∧ (split l)[j]? = some w2 ∧ s.getSim w1 w2 sim s2 = .ok x ∧ t = L.strNum x := by
  intro ls os h
  induction h with
  | nil => exact ⟨[], rfl, rfl, by simp⟩
  | cons h1 _ ih =>
    obtain ⟨ss, e1, e2, e3⟩ := ih
    obtain ⟨w1, w2, x, g1, g2, g3, g4⟩ := h1
    refine ⟨L.strNum x :: ss, by simp [e1], ?_, ?_⟩
    · rw [List.zipWith_cons_cons, ← e2, g4]
      rfl
    · intro k l t hl ht
      cases k with
      | zero =>
        simp only [List.getElem?_cons_zero, Option.some.injEq] at hl ht
        subst hl ht
        exact ⟨w1, w2, x, g1, g2, g3, rfl⟩
      | succ k => exact e3 k l t (by simpa using hl) (by simpa using ht)

/-- **C148** Let `compute_neighbours` and `compute_similarities` be run on the same space files with the same measure. The
neighbours file consists of one block for each word of its input, the similarity file of one line for each line of its
input, and whenever `v` is printed as a neighbour of `w` and an input line pairs `w` with `v`, the two files show the same
score text. -/
theorem C148_same_scores {L : Lib} {fsN fsN' fsS fsS' : Fs} {wordFile wordBase pairFile pairBase outN outS d m a b : Str}
    {n : ℤ} {files : List Str} {i j : ℕ} {s target : Space Str} {s2 : Option (Space Str)} {sim : Sim} {measures : List Str}
    (hbN : IsBase wordFile wordBase) (hbS : IsBase pairFile pairBase) (hn : IsFileName pairBase)
    (ha : pyInt a = .ok ((i + 1 : ℕ) : ℤ)) (hb : pyInt b = .ok ((j + 1 : ℕ) : ℤ)) (hnm : SpacesName files d)
    (hsN : SpacesFrom L fsN files s s2) (hsS : SpacesFrom L fsS files s s2)
    (ht : target = s2.getD s) (h1 : s.WF) (h2 : target.WF) (hc : 0 < s.mat.nc) (hcc : s.mat.nc = target.mat.nc)
    (hrow : 0 < target.id2row.length) (hm : m ∈ measures) (hk : (m, sim) ∈ measureTable)
    (hN : computeNeighbours L wordFile n outN m files fsN = .ok fsN')
    (hS : computeSim L pairFile [a, b] outS measures files fsS = .ok fsS') :
    ∃ (words pairs : Str) (entries : List (List (Str × Str))) (scores : List Str),
      fsN.read wordFile = .ok words ∧ fsS.read pairFile = .ok pairs ∧
      entries.length = (textLines words).length ∧ scores.length = (textLines pairs).length ∧
      fsN'.read (neighboursFile outN wordBase d m) = .ok (List.zipWith blockText (textLines words) entries).flatten ∧
      fsS'.read (simsFile outS pairBase d m) = .ok (List.zipWith scoreText (textLines pairs) scores).flatten ∧
      (∀ (k : ℕ) (w : Str) (es : List (Str × Str)), (textLines words)[k]? = some w → entries[k]? = some es →
        ∃ ns, s.getNeighbours w n sim s2 = .ok ns ∧ es = ns.map (fun p => (p.1, L.strNum p.2))) ∧
      ∀ (k l : ℕ) (w v shown pair score : Str) (es : List (Str × Str)),
        (textLines words)[k]? = some w → entries[k]? = some es → (v, shown) ∈ es →
        (textLines pairs)[l]? = some pair → scores[l]? = some score →
        (split pair)[i]? = some w → (split pair)[j]? = some v → score = shown := by
  obtain ⟨words, bs, r1, b1, b2⟩ := C82_neighbours hbN hnm hsN hk hN
  obtain ⟨pairs, out, r2, ⟨os, o1, o2⟩, o3⟩ := C71_scores hbS hn ha hb hnm hsS hS hm hk
  obtain ⟨es, e1, e2, e3⟩ := blocks_entries b1
  obtain ⟨ss, s1, s2', s3⟩ := lines_scores o1
  refine ⟨words, pairs, es, ss, r1, r2, e1, s1, by rw [b2, e2], by rw [o3, o2, s2'], e3, ?_⟩
  intro k l w v shown pair score e hw he hv hp hsc g1 g2
  obtain ⟨ns, n1, rfl⟩ := e3 k w e hw he
  obtain ⟨p, hp1, hp2⟩ := List.mem_map.1 hv
  obtain ⟨w1, w2, x, q1, q2, q3, rfl⟩ := s3 l pair score hp hsc
  rw [g1] at q1
  rw [g2] at q2
  simp only [Option.some.injEq] at q1 q2
  subst q1 q2
  have hx := C10_scores_are_get_sim s target s2 sim w n ht h1 h2 hc hcc hrow ns n1 p hp1
  simp only [Prod.mk.injEq] at hp2
  obtain ⟨rfl, rfl⟩ := hp2
  rw [q3] at hx
  rw [ok_inj hx]

end
end Dissect
