import Verif.Props.Sims
import Verif.Props.SimsTotal
import Verif.Props.Neighbours
import Verif.Props.RoundTrip

/-! # C118: evaluating the output of `compute_similarities` -/

namespace Dissect
noncomputable section

/-- A record of the input and its predicted value: the similarity of the words in fields `i` and `j`, as read back from its
decimal text. -/
def Predicted (L : Lib) (s : Space Str) (s2 : Option (Space Str)) (sim : Sim) (i j : ℕ) (words : List Str) (y : ℝ) : Prop :=
  ∃ w1 w2 x, words[i]? = some w1 ∧ words[j]? = some w2 ∧ s.getSim w1 w2 sim s2 = .ok x ∧ L.io.parse (L.strNum x) = some y

theorem splitAux_append_word {w : Str} (hw : IsWord w) : ∀ (l cur : Str),
    splitAux cur (l ++ ' ' :: w ++ ['\n']) = splitAux cur l ++ [w] := by
  have hend : splitAux [] (w ++ ['\n']) = [w] := by
    have := split_cons hw (c := '\n') (by decide) []
    unfold split at this
    rw [this]
    rfl
  intro l
  induction l with
  | nil =>
    intro cur
    by_cases hc : cur = []
    · subst hc
      rw [List.nil_append, List.cons_append, splitAux]
      simp only [show isWs ' ' = true by decide, if_true, hend, splitAux, List.nil_append]
    · rw [List.nil_append, List.cons_append, splitAux]
      simp only [show isWs ' ' = true by decide, if_true, hend, splitAux, if_neg hc, List.singleton_append]
  | cons c l ih =>
    intro cur
    rw [List.cons_append, List.cons_append, splitAux, splitAux]
    split
    · split
      · exact ih []
      · rw [ih []]; rfl
    · exact ih _

theorem split_append_word {w : Str} (hw : IsWord w) (l : Str) : split (l ++ ' ' :: w ++ ['\n']) = split l ++ [w] :=
  splitAux_append_word hw l []

theorem textLines_split (content : Str) : (textLines content).map split = records content := split_strippedLines content

/-- No stripped line contains a line end. -/
theorem linesAux_nl (s : Str) : ∀ cur, '\n' ∉ cur → ∀ l ∈ linesAux cur s, ∃ t, '\n' ∉ t ∧ (l = t ∨ l = t ++ ['\n']) := by
  induction s with
  | nil =>
    intro cur hc l hl
    unfold linesAux at hl
    split at hl
    · cases hl
    · rw [List.mem_singleton] at hl
      exact ⟨cur, hc, Or.inl hl⟩
  | cons c s ih =>
    intro cur hc l hl
    unfold linesAux at hl
    split at hl
    · rename_i hcn
      subst hcn
      rcases List.mem_cons.1 hl with h | h
      · exact ⟨cur, hc, Or.inr h⟩
      · exact ih [] (by simp) l h
    · rename_i hcn
      exact ih (cur ++ [c]) (by simp [hc, Ne.symm hcn]) l hl

theorem textLines_nl {content l : Str} (h : l ∈ textLines content) : '\n' ∉ l := by
  unfold textLines at h
  rw [List.mem_filter, List.mem_map] at h
  obtain ⟨⟨a, ha, rfl⟩, _⟩ := h
  obtain ⟨t, ht, h⟩ := linesAux_nl content [] (by simp) a ha
  intro hn
  have key : ∀ b : Str, '\n' ∈ strip b → '\n' ∉ b.dropLast → False := by
    intro b hb hd
    have hl : (strip b).getLast? ≠ none := by
      intro h0
      rw [List.getLast?_eq_none_iff] at h0
      rw [h0] at hb
      cases hb
    obtain ⟨t', ht', hdec⟩ := rstrip_decomp (b.dropWhile isWs)
    have hsfx : strip b ++ t' <:+ b := by
      unfold strip
      rw [← hdec]
      exact List.dropWhile_suffix _
    obtain ⟨p, hp⟩ := hsfx
    -- the last character of `strip b` is not white space
    have hlast : ∀ c, (strip b).getLast? = some c → isWs c = false := by
      intro c hc
      unfold strip at hc
      rw [List.getLast?_reverse] at hc
      have := List.head?_dropWhile_not isWs ((b.dropWhile isWs).reverse)
      rw [hc] at this
      simpa using this
    obtain ⟨c, hc⟩ := Option.ne_none_iff_exists'.1 hl
    have hne : c ≠ '\n' := by
      rintro rfl
      have := hlast _ hc
      revert this
      decide
    have hs : strip b = (strip b).dropLast ++ [c] := by
      obtain ⟨ys, hys⟩ := List.getLast?_eq_some_iff.1 hc
      rw [hys, List.dropLast_concat]
    have hmem : '\n' ∈ (strip b).dropLast := by
      rw [hs] at hb
      rcases List.mem_append.1 hb with h | h
      · exact h
      · exact absurd (List.mem_singleton.1 h).symm hne
    apply hd
    have hb' : b = (p ++ (strip b).dropLast) ++ (c :: t') := by
      conv_lhs => rw [← hp, hs]
      simp
    rw [hb', List.dropLast_append_of_ne_nil (by simp)]
    exact List.mem_append_left _ (List.mem_append_right _ hmem)
  rcases h with h | h
  · rw [h] at hn
    exact key t hn (fun h => ht (List.dropLast_subset _ h))
  · rw [h] at hn
    exact key _ hn (by rw [List.dropLast_concat]; exact ht)

/-- The records of the output of `compute_similarities`: those of the input, each followed by the text of its similarity. -/
theorem simFile_records {L : Lib} {s : Space Str} {s2 : Option (Space Str)} {sim : Sim} {i j : ℕ} {content out : Str}
    (hw : ∀ x, IsWord (L.strNum x)) (h : SimFile L s s2 sim i j content out) :
    List.Forall₂ (fun words rec => ∃ w1 w2 x, words[i]? = some w1 ∧ words[j]? = some w2 ∧ s.getSim w1 w2 sim s2 = .ok x ∧
      rec = words ++ [L.strNum x]) (records content) (records out) := by
  obtain ⟨ls, h, rfl⟩ := h
  have key : ∀ ts : List Str, (∀ t ∈ ts, '\n' ∉ t) → ∀ ls, List.Forall₂ (SimLine L s s2 sim i j) ts ls →
      List.Forall₂ (fun words rec => ∃ w1 w2 x, words[i]? = some w1 ∧ words[j]? = some w2 ∧ s.getSim w1 w2 sim s2 = .ok x ∧
        rec = words ++ [L.strNum x]) (ts.map split) (records ls.flatten) := by
    intro ts hts ls hl
    induction hl with
    | nil => exact List.Forall₂.nil
    | @cons t l ts ls h _ ih =>
      obtain ⟨w1, w2, x, a1, a2, a3, rfl⟩ := h
      have hnl : '\n' ∉ t ++ ' ' :: L.strNum x := by
        intro hm
        rcases List.mem_append.1 hm with hm | hm
        · exact hts t (by simp) hm
        · rcases List.mem_cons.1 hm with hm | hm
          · exact absurd hm (by decide)
          · have := (hw x).2 _ hm
            revert this
            decide
      have hrec : records (((t ++ ' ' :: L.strNum x ++ ['\n']) :: ls).flatten) =
          (split t ++ [L.strNum x]) :: records ls.flatten := by
        have := fileLines_cons hnl ls.flatten
        rw [List.flatten_cons]
        unfold records
        rw [List.append_assoc, List.singleton_append, this, List.map_cons, split_append_word (hw x), List.filter_cons,
          if_pos (by simp)]
      rw [hrec, List.map_cons]
      exact List.Forall₂.cons ⟨w1, w2, x, a1, a2, a3, rfl⟩ (ih (fun t ht => hts t (List.mem_cons_of_mem _ ht)))
  rw [← textLines_split]
  exact key _ (fun t ht => textLines_nl ht) ls h

theorem forall₂_left_iff {α β γ : Type} {R : α → β → Prop} {P : α → γ → Prop} {Q : β → γ → Prop}
    (hPQ : ∀ a b, R a b → ∀ c, P a c ↔ Q b c) {as : List α} {bs : List β} (h : List.Forall₂ R as bs) (cs : List γ) :
    List.Forall₂ P as cs ↔ List.Forall₂ Q bs cs := by
  induction h generalizing cs with
  | nil => simp
  | cons h _ ih =>
    cases cs with
    | nil => simp
    | cons c cs => rw [List.forall₂_cons, List.forall₂_cons, hPQ _ _ h c, ih cs]

theorem forall₂_imp_mem {α β : Type} {R S : α → β → Prop} {as : List α} {bs : List β} (h : List.Forall₂ R as bs)
    (hi : ∀ a ∈ as, ∀ b, R a b → S a b) : List.Forall₂ S as bs := by
  induction h with
  | nil => exact List.Forall₂.nil
  | cons h _ ih => exact List.Forall₂.cons (hi _ (by simp) _ h) (ih (fun a ha b hr => hi a (List.mem_cons_of_mem _ ha) b hr))

/-- **C118** `compute_similarities` followed by `evaluate_similarities` on its output, for an input whose non-blank lines all
have `n` fields: with the columns `g` and `n + 1` the correlations are those of the numbers in column `g` of the input with
the similarities of the words (as read back from their decimal text). -/
theorem C118_chain {L : Lib} {fs fs' : Fs} {inFile base outDir d a b content g c : Str} {files : List Str} {i j k n : ℕ}
    {s : Space Str} {s2 : Option (Space Str)} {measures corr : List Str} {r : List (Str × ℝ)}
    (hw : ∀ x, IsWord (L.strNum x)) (hb : IsBase inFile base) (hn : IsFileName base)
    (ha : pyInt a = .ok ((i + 1 : ℕ) : ℤ)) (hb' : pyInt b = .ok ((j + 1 : ℕ) : ℤ)) (hnm : SpacesName files d)
    (hs : SpacesFrom L fs files s s2) (h : computeSim L inFile [a, b] outDir measures files fs = .ok fs')
    {m : Str} {sim : Sim} (hm : m ∈ measures) (hk : (m, sim) ∈ measureTable)
    (hr : fs.read inFile = .ok content) (hlen : ∀ words ∈ records content, words.length = n)
    (hg : pyInt g = .ok ((k + 1 : ℕ) : ℤ)) (hc : pyInt c = .ok ((n + 1 : ℕ) : ℤ)) (hkn : k < n) :
    evaluateSim L fs' (simsFile outDir base d m) [g, c] corr = .ok r ↔
      ∃ gold pred, List.Forall₂ (NumberIn L.io k) (records content) gold ∧
        List.Forall₂ (Predicted L s s2 sim i j) (records content) pred ∧
        List.Forall₂ (fun m x => x.1 = m ∧ score L.stats gold pred m = .ok x.2) corr r := by
  obtain ⟨content', out, h1, h2, h3⟩ := C71_scores hb hn ha hb' hnm hs h hm hk
  rw [hr] at h1
  obtain rfl := ok_inj h1
  have hrec := forall₂_imp_mem (simFile_records hw h2) (S := fun words rec => words.length = n ∧
    ∃ w1 w2 x, words[i]? = some w1 ∧ words[j]? = some w2 ∧ s.getSim w1 w2 sim s2 = .ok x ∧
      rec = words ++ [L.strNum x]) (fun w hw' rec hx => ⟨hlen w hw', hx⟩)
  have hgold : ∀ gold, List.Forall₂ (NumberIn L.io k) (records content) gold ↔
      List.Forall₂ (NumberIn L.io k) (records out) gold := by
    refine fun gold => forall₂_left_iff ?_ hrec gold
    rintro words rec ⟨hl, w1, w2, x, _, _, _, rfl⟩ y
    unfold NumberIn
    rw [List.getElem?_append_left (by omega)]
  have hpred : ∀ pred, List.Forall₂ (Predicted L s s2 sim i j) (records content) pred ↔
      List.Forall₂ (NumberIn L.io n) (records out) pred := by
    refine fun pred => forall₂_left_iff ?_ hrec pred
    rintro words rec ⟨hl, w1, w2, x, a1, a2, a3, rfl⟩ y
    unfold NumberIn Predicted
    rw [List.getElem?_append_right (by omega), hl, Nat.sub_self]
    constructor
    · rintro ⟨v1, v2, z, b1, b2, b3, b4⟩
      rw [a1] at b1
      rw [a2] at b2
      injection b1 with b1
      injection b2 with b2
      subst b1 b2
      rw [a3] at b3
      obtain rfl := ok_inj b3
      exact ⟨_, rfl, b4⟩
    · rintro ⟨w, hw', hp⟩
      have hw'' : L.strNum x = w := by simpa using hw'
      exact ⟨w1, w2, x, a1, a2, a3, hw'' ▸ hp⟩
  rw [C83_scores hg hc]
  constructor
  · rintro ⟨cc, gold, pred, e1, e2, e3, e4⟩
    rw [h3] at e1
    obtain rfl := ok_inj e1
    exact ⟨gold, pred, (hgold _).2 e2, (hpred _).2 e3, e4⟩
  · rintro ⟨gold, pred, e2, e3, e4⟩
    exact ⟨out, gold, pred, h3, (hgold _).1 e2, (hpred _).1 e3, e4⟩

end
end Dissect
