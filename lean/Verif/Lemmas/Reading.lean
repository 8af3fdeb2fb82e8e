import Verif.Model.Pipeline
import Verif.Lemmas.Io

/-! Lemmas about `read_tuple_list` and `read_list`. -/

namespace Dissect
noncomputable section

theorem pyGet_nat_err {α : Type} {l : List α} {k : ℕ} (h : l.length ≤ k) : pyGet l (k : ℤ) = .error .indexError := by
  unfold pyGet pyIdx
  rw [if_neg (by omega), if_neg (by omega)]

theorem pickFields_eq {t : List Str} {fields : List ℕ} : ∀ {r : List Str},
    pickFields t (fields.map Int.ofNat) = .ok r ↔ List.Forall₂ (fun (f : ℕ) x => t[f]? = some x) fields r := by
  induction fields with
  | nil => intro r; simp [pickFields, eq_comm]
  | cons f fs ih =>
    intro r
    simp only [List.map_cons, pickFields, bind_eq_ok, pure_eq_ok]
    constructor
    · rintro ⟨x, hx, xs, hxs, h⟩
      obtain rfl := ok_inj h
      exact .cons (pyGet_nat_iff.1 hx) (ih.1 hxs)
    · rintro (_ | ⟨hx, hxs⟩)
      exact ⟨_, pyGet_nat_iff.2 hx, _, ih.2 hxs, rfl⟩

theorem pickFields_err {t : List Str} {fields : List ℕ} (h : ∃ f ∈ fields, t.length ≤ f) :
    pickFields t (fields.map Int.ofNat) = .error .indexError := by
  induction fields with
  | nil => simp at h
  | cons f fs ih =>
    simp only [List.map_cons, pickFields]
    by_cases hf : t.length ≤ f
    · have : pyGet t (Int.ofNat f) = .error .indexError := pyGet_nat_err hf
      rw [this]; rfl
    · have hx : t[f]? = some t[f] := List.getElem?_eq_getElem (by omega)
      have : pyGet t (Int.ofNat f) = .ok t[f] := pyGet_nat hx
      rw [this, ok_bind, ih]
      · rfl
      · obtain ⟨g, hg, hl⟩ := h
        rcases List.mem_cons.1 hg with rfl | hg
        · exact absurd hl hf
        · exact ⟨g, hg, hl⟩

theorem readTuples_ok {fields : List ℕ} (hne : fields ≠ []) : ∀ {ls r : List (List Str)},
    readTuples (fields.map Int.ofNat) ls = .ok r ↔
      List.Forall₂ (fun t u => List.Forall₂ (fun (f : ℕ) x => t[f]? = some x) fields u) ls r := by
  intro ls
  have hne' : fields.map Int.ofNat ≠ [] := by simpa using hne
  induction ls with
  | nil => intro r; simp [readTuples, eq_comm]
  | cons t ts ih =>
    intro r
    simp only [readTuples, if_neg hne', bind_eq_ok, pure_eq_ok]
    constructor
    · rintro ⟨x, hx, xs, hxs, h⟩
      obtain rfl := ok_inj h
      exact .cons (pickFields_eq.1 hx) (ih.1 hxs)
    · rintro (_ | ⟨hx, hxs⟩)
      exact ⟨_, pickFields_eq.2 hx, _, ih.2 hxs, rfl⟩

theorem readTuples_err {fields : List ℕ} (hne : fields ≠ []) : ∀ {ls : List (List Str)},
    (∃ t ∈ ls, ∃ f ∈ fields, t.length ≤ f) → readTuples (fields.map Int.ofNat) ls = .error .indexError := by
  intro ls
  have hne' : fields.map Int.ofNat ≠ [] := by simpa using hne
  induction ls with
  | nil => simp
  | cons t ts ih =>
    rintro ⟨u, hu, hf⟩
    simp only [readTuples, if_neg hne']
    by_cases ht : ∃ f ∈ fields, t.length ≤ f
    · rw [pickFields_err ht]; rfl
    · have hu' : u ∈ ts := by
        rcases List.mem_cons.1 hu with rfl | h
        · exact absurd hf ht
        · exact h
      rcases py_cases (pickFields t (fields.map Int.ofNat)) with ⟨x, hx⟩ | ⟨e, he⟩
      · rw [hx, ok_bind, ih ⟨u, hu', hf⟩]; rfl
      · exfalso
        have : ∃ r, List.Forall₂ (fun (f : ℕ) x => t[f]? = some x) fields r := by
          clear hne hne' ih he hf
          induction fields with
          | nil => exact ⟨[], .nil⟩
          | cons f fs ih =>
            obtain ⟨r, hr⟩ := ih (by rintro ⟨g, hg, hl⟩; exact ht ⟨g, by simp [hg], hl⟩)
            have : f < t.length := by
              by_contra hc
              exact ht ⟨f, by simp, by omega⟩
            exact ⟨t[f] :: r, .cons (List.getElem?_eq_getElem this) hr⟩
        obtain ⟨r, hr⟩ := this
        rw [pickFields_eq.2 hr] at he
        cases he

theorem readTuples_all : ∀ ls : List (List Str), readTuples [] ls = .ok ls := by
  intro ls
  induction ls with
  | nil => rfl
  | cons t ts ih => simp [readTuples, ih]

/-- The triples read from a file: the first three fields of every record. -/
theorem readTriples_ok {content : Str} {data : List (Triple Str)} : readTriples content = .ok data ↔
    List.Forall₂ (fun t (d : Triple Str) => ∃ rest, t = d.1 :: d.2.1 :: d.2.2 :: rest) (records content) data := by
  have h3 : ([0, 1, 2] : List ℤ) = [0, 1, 2].map Int.ofNat := rfl
  simp only [readTriples, readTupleList, bind_eq_ok, pure_eq_ok, tokenLines_eq]
  rw [h3]
  simp only [readTuples_ok (show ([0, 1, 2] : List ℕ) ≠ [] by simp)]
  have key : ∀ (t u : List Str), List.Forall₂ (fun (f : ℕ) x => t[f]? = some x) [0, 1, 2] u ↔
      ∃ a b c rest, u = [a, b, c] ∧ t = a :: b :: c :: rest := by
    intro t u
    constructor
    · intro h
      obtain ⟨a, u1, h1, hu, rfl⟩ := List.forall₂_cons_left_iff.1 h
      obtain ⟨b, u2, h2, hv, rfl⟩ := List.forall₂_cons_left_iff.1 hu
      obtain ⟨c, u3, h3, hw, rfl⟩ := List.forall₂_cons_left_iff.1 hv
      obtain rfl := List.forall₂_nil_left_iff.1 hw
      match t, h1, h2, h3 with
      | a' :: b' :: c' :: rest, h1, h2, h3 =>
        simp at h1 h2 h3
        subst h1 h2 h3
        exact ⟨_, _, _, rest, rfl, rfl⟩
    · rintro ⟨a, b, c, rest, rfl, rfl⟩
      exact .cons rfl (.cons rfl (.cons rfl .nil))
  constructor
  · rintro ⟨ts, h, hd⟩
    obtain rfl := ok_inj hd
    generalize records content = rs at h
    clear hd
    induction h with
    | nil => exact .nil
    | @cons t u ts us htu _ ih =>
      obtain ⟨a, b, c, rest, rfl, rfl⟩ := (key t u).1 htu
      exact .cons ⟨rest, rfl⟩ ih
  · intro h
    refine ⟨data.map (fun d => [d.1, d.2.1, d.2.2]), ?_, ?_⟩
    · generalize records content = rs at h
      induction h with
      | nil => exact .nil
      | @cons t d ts ds htd _ ih =>
        obtain ⟨rest, rfl⟩ := htd
        exact .cons ((key _ _).2 ⟨_, _, _, rest, rfl, rfl⟩) ih
    · congr 1
      clear h
      induction data with
      | nil => rfl
      | cons d ds ih => rw [List.map_cons, List.filterMap_cons, ih]

theorem readField_ok {f : ℕ} : ∀ {ls r : List Str},
    readFieldLoop (f : ℤ) ls = .ok r ↔ List.Forall₂ (fun l x => (split l)[f]? = some x) ls r := by
  intro ls
  induction ls with
  | nil => intro r; simp [readFieldLoop, eq_comm]
  | cons t ts ih =>
    intro r
    simp only [readFieldLoop, bind_eq_ok, pure_eq_ok]
    constructor
    · rintro ⟨x, hx, xs, hxs, h⟩
      obtain rfl := ok_inj h
      exact .cons (pyGet_nat_iff.1 hx) (ih.1 hxs)
    · rintro (_ | ⟨hx, hxs⟩)
      exact ⟨_, pyGet_nat_iff.2 hx, _, ih.2 hxs, rfl⟩

theorem readField_err {f : ℕ} : ∀ {ls : List Str}, (∃ l ∈ ls, (split l).length ≤ f) →
    readFieldLoop (f : ℤ) ls = .error .indexError := by
  intro ls
  induction ls with
  | nil => simp
  | cons t ts ih =>
    rintro ⟨u, hu, hf⟩
    simp only [readFieldLoop]
    by_cases ht : (split t).length ≤ f
    · rw [pyGet_nat_err ht]; rfl
    · have hx : (split t)[f]? = some (split t)[f] := List.getElem?_eq_getElem (by omega)
      rw [pyGet_nat hx, ok_bind]
      have hu' : u ∈ ts := by
        rcases List.mem_cons.1 hu with rfl | h
        · exact absurd hf ht
        · exact h
      rw [ih ⟨u, hu', hf⟩]; rfl

theorem split_strippedLines (content : Str) : (strippedLines content).map split = records content := by
  unfold strippedLines records
  generalize fileLines content = ls
  induction ls with
  | nil => rfl
  | cons l ls ih =>
    simp only [List.map_cons, List.filter_cons]
    have h : (strip l ≠ []) ↔ split l ≠ [] := not_congr (strip_eq_nil l)
    by_cases hs : strip l = []
    · have : split l = [] := (strip_eq_nil l).1 hs
      simpa [hs, this] using ih
    · have : split l ≠ [] := h.1 hs
      simpa [hs, this, split_strip] using ih

end
end Dissect
