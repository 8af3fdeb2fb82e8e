import Verif.Lemmas.Reading

/-! # C75: `read_tuple_list`, `read_list` -/

namespace Dissect
noncomputable section

/-- **C75** With fields: the result has one tuple for every record of the file (the words of a non-blank line), in order,
consisting of exactly the requested fields. -/
theorem C75_tuples {content : Str} {fields : List ℕ} (hne : fields ≠ []) {r : List (List Str)} :
    readTupleList content (fields.map Int.ofNat) = .ok r ↔
      List.Forall₂ (fun words tuple => List.Forall₂ (fun (f : ℕ) x => words[f]? = some x) fields tuple) (records content) r := by
  unfold readTupleList
  rw [tokenLines_eq]
  exact readTuples_ok hne

/-- **C75** A line that lacks a requested field is an `IndexError`; it is the only reason to fail. -/
theorem C75_tuples_error {content : Str} {fields : List ℕ} (hne : fields ≠ []) :
    ((∃ words ∈ records content, ∃ f ∈ fields, words.length ≤ f) →
      readTupleList content (fields.map Int.ofNat) = .error .indexError) ∧
    ((∀ words ∈ records content, ∀ f ∈ fields, f < words.length) →
      readTupleList content (fields.map Int.ofNat) =
        .ok ((records content).map (fun words => fields.map (fun f => (words[f]?).getD [])))) := by
  constructor
  · intro h
    unfold readTupleList
    rw [tokenLines_eq]
    exact readTuples_err hne h
  · intro h
    rw [C75_tuples hne]
    generalize records content = rs at h
    induction rs with
    | nil => exact .nil
    | cons t ts ih =>
      refine .cons ?_ (ih (fun l hl => h l (by simp [hl])))
      have ht := h t (by simp)
      clear ih h hne
      induction fields with
      | nil => exact .nil
      | cons f fs ih =>
        refine .cons ?_ (ih (fun g hg => ht g (by simp [hg])))
        show t[f]? = some ((t[f]?).getD [])
        rw [List.getElem?_eq_getElem (ht f (by simp))]
        rfl

/-- **C75** Without fields all words of every non-blank line are returned. -/
theorem C75_all_words (content : Str) : readTupleList content [] = .ok (records content) := by
  unfold readTupleList
  rw [tokenLines_eq]
  exact readTuples_all _

/-- **C75** `read_list` without a field: the non-blank lines without surrounding white space. -/
theorem C75_lines (content : Str) :
    readList content none = .ok (((fileLines content).map strip).filter (fun l => decide (l ≠ []))) := rfl

/-- **C75** `read_list` with a field: that field of every record, `IndexError` iff one lacks it. -/
theorem C75_field {content : Str} {f : ℕ} :
    (∀ r, readList content (some (f : ℤ)) = .ok r ↔ List.Forall₂ (fun words x => words[f]? = some x) (records content) r) ∧
    ((∃ words ∈ records content, words.length ≤ f) → readList content (some (f : ℤ)) = .error .indexError) := by
  constructor
  · intro r
    rw [← split_strippedLines, List.forall₂_map_left_iff]
    exact readField_ok
  · rintro ⟨words, hl, hf⟩
    rw [← split_strippedLines] at hl
    obtain ⟨l, hm, rfl⟩ := List.mem_map.1 hl
    exact readField_err ⟨l, hm, hf⟩

example : readTupleList cs!"a b c\n\n x  y\tz w\n" [2, 0] = .ok [[cs!"c", cs!"a"], [cs!"z", cs!"x"]] ∧
    readTupleList cs!"a b c\n\n x  y\n" [2, 0] = .error .indexError ∧
    readList cs!" a b \n\n c" none = .ok [cs!"a b", cs!"c"] := ⟨rfl, rfl, rfl⟩

end
end Dissect
