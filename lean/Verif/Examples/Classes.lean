import Verif.Examples.Compose
import Verif.Examples.Learn
import Verif.Examples.StackMore
import Verif.Props.Classes

/-! # Concrete instances: C161 -/

namespace Dissect
noncomputable section
namespace Examples

theorem animals_twin (ty ty' : MTy) : Twin (animals ty) (animals ty') := ⟨rfl, rfl, rfl, rfl, rfl, rfl, rfl⟩
theorem adjectives_twin (ty ty' : MTy) : Twin (adjectives ty) (adjectives ty') := ⟨rfl, rfl, rfl, rfl, rfl, rfl, rfl⟩
theorem animals_inhabited (ty : MTy) : Inhabited' (animals ty) := ⟨Nat.succ_pos 1, Nat.succ_pos 2⟩

/-- C161: the two conversions of a concrete space. -/
example : ∃ d p, (animals .sparse).toDense = .ok d ∧ (animals .sparse).toSparse = .ok p ∧ d.mat.ty = .dense ∧ Twin d p := by
  obtain ⟨d, p, h1, h2, h3, _, _, _, h4⟩ := C161_convert (animals .sparse) (animals_inhabited _)
  exact ⟨d, p, h1, h2, h3, h4⟩

/-- C161: a similarity across two spaces, in mixed storage. -/
example (sim : Sim) : (animals .dense).getSim "dog" "red" sim (some (adjectives .sparse)) =
    (animals .sparse).getSim "dog" "red" sim (some (adjectives .dense)) :=
  C161_sim _ _ (some (adjectives .sparse)) (some (adjectives .dense)) (animals_twin _ _) (adjectives_twin _ _) (animals_wf _) (animals_wf _) (adjectives_wf _) (adjectives_wf _)
    (Nat.succ_pos 2) rfl "dog" "red" sim

/-- C161: neighbours. -/
example : ∃ res, (animals .dense).getNeighbours "dog" 1 .cos none = .ok res ∧
    (animals .sparse).getNeighbours "dog" 1 .cos none = .ok res :=
  C161_neighbours _ _ none none (animals_twin _ _) (animals_twin _ _) (animals_wf _) (animals_wf _) (animals_wf _) (animals_wf _)
    (Nat.succ_pos 2) rfl (Nat.succ_pos 1) "dog" 1 .cos (by decide)

/-- C161: ppmi weighting, row normalisation and feature selection, one after the other. -/
example (env : Env) : (∃ s' t', (animals .dense).applyAll env [.scaling .ppmi, .scaling (.rowNorm .length), .featsel 2 .sum] = .ok s' ∧
      (animals .sparse).applyAll env [.scaling .ppmi, .scaling (.rowNorm .length), .featsel 2 .sum] = .ok t' ∧ Twin s' t') ∨
    ∃ e, (animals .dense).applyAll env [.scaling .ppmi, .scaling (.rowNorm .length), .featsel 2 .sum] = .error e ∧
      (animals .sparse).applyAll env [.scaling .ppmi, .scaling (.rowNorm .length), .featsel 2 .sum] = .error e :=
  C161_chain_partial env _ _ (animals_twin _ _) (animals_inhabited _) _ (by
    intro tr h
    simp only [List.mem_cons, List.not_mem_nil, or_false] at h
    rcases h with rfl | rfl | rfl
    · exact trivial
    · exact trivial
    · exact Nat.succ_pos 1)

/-- C161: multiplicative composition of dense adjectives and sparse nouns, and of sparse adjectives and dense nouns. -/
example : ∃ r r', ((newMultiplicative : Composer String).compose phrases pair).2 = .ok r ∧
    ((newMultiplicative : Composer String).compose phrases (.tuple [adjectives .sparse, animals .dense])).2 = .ok r' ∧
    r.id2row = r'.id2row ∧ r.mat.nc = r'.mat.nc ∧
      ∀ k j, k < r.mat.nr → j < r.mat.nc → r.mat.val.get k j = r'.mat.val.get k j := by
  have hx' : (ArgSpace.tuple [adjectives .sparse, animals .dense]).extract = .ok (adjectives .sparse, animals .dense) :=
    (extract_iff _ _ _).2 (Or.inr ⟨rfl, rfl⟩)
  have hf := mult_fits
  have hcf : (newMultiplicative : Composer String).ColumnsFit 3 := fun c h => by cases h
  obtain ⟨r, h1, _⟩ := C42_multiplicative phrases pair _ _ pair_extract (adjectives_wf _) (animals_wf _) rfl (by decide)
    phrases_ne phrases_nodup
  obtain ⟨r', h2⟩ := (C161_compose_iff newMultiplicative phrases pair _ _ _ _ _ 3 pair_extract hx' (adjectives_twin _ _)
    (animals_twin _ _) (adjectives_wf _) (animals_wf _) (adjectives_wf _) (animals_wf _) hf hcf).1 ⟨r, h1⟩
  exact ⟨r, r', h1, h2, C161_compose newMultiplicative phrases pair _ _ _ _ _ 3 pair_extract hx' (adjectives_twin _ _)
    (animals_twin _ _) (adjectives_wf _) (animals_wf _) (adjectives_wf _) (animals_wf _) hf hcf r r' h1 h2⟩

/-- Training data: the "phrase" of two words is an animal. -/
def herding : List (Triple String) := [("red", "dog", "cat"), ("big", "cat", "dog")]

theorem herding_kept (ty ty' : MTy) : trainTriples (adjectives ty) (animals ty') (animals ty) herding = herding := by
  cases ty <;> cases ty' <;> decide

theorem mixed_pair (ty ty' : MTy) : (ArgSpace.tuple [adjectives ty, animals ty']).extract = .ok (adjectives ty, animals ty') :=
  (extract_iff _ _ _).2 (Or.inr ⟨rfl, rfl⟩)

/-- C161: dilation, trained with every mixture of classes. -/
example (env : Env) (ty ty' : MTy) : ∃ c', (⟨.dilation 2, none⟩ : Composer String).train env herding pair (animals .dense) = .ok c' ∧
    (⟨.dilation 2, none⟩ : Composer String).train env herding (.tuple [adjectives ty, animals ty']) (animals ty) = .ok c' := by
  obtain ⟨lam, ht, _⟩ := C49_dilation env (⟨.dilation 2, none⟩ : Composer String) _ rfl herding pair (adjectives .dense)
    (animals .sparse) (animals .dense) 3 pair_extract (adjectives_wf _) (animals_wf _) (animals_wf _) (Nat.succ_pos 2) rfl rfl rfl
    (by rw [herding_kept]; simp [herding])
  refine ⟨_, ht, ?_⟩
  rw [← C161_train_dilation env ⟨.dilation 2, none⟩ _ rfl herding pair _ _ _ _ _ _ _ 3 pair_extract (mixed_pair ty ty')
    (adjectives_twin .dense _) (animals_twin .sparse _) (animals_twin .dense _) (adjectives_wf _) (animals_wf _) (animals_wf _)
    (adjectives_wf _) (animals_wf _) (animals_wf _) (Nat.succ_pos 2) rfl rfl rfl, ht]

/-- C161: a weighted additive model. -/
example (ty ty' : MTy) : (⟨.weighted 1 1, none⟩ : Composer String).train idealEnv herding pair (animals .dense) =
    (⟨.weighted 1 1, none⟩ : Composer String).train idealEnv herding (.tuple [adjectives ty, animals ty']) (animals ty) :=
  C161_train_weighted idealEnv idealEnv_ideal ⟨.weighted 1 1, none⟩ _ _ rfl herding pair _ _ _ _ _ _ _ 3 pair_extract
    (mixed_pair ty ty') (adjectives_twin .dense _) (animals_twin .sparse _) (animals_twin .dense _) (adjectives_wf _) (animals_wf _)
    (animals_wf _) (adjectives_wf _) (animals_wf _) (animals_wf _) (Nat.succ_pos 2) rfl rfl rfl

/-- C161: a full additive model; the training succeeds. -/
example (ty ty' : MTy) : ∃ A B t t' ic cols,
    (⟨.fullAdditive none none false (some (.lstsq true)), none⟩ : Composer String).train idealEnv herding pair (animals .dense) =
      .ok ⟨.fullAdditive (some ⟨t, A⟩) (some ⟨t, B⟩) ic (some (.lstsq true)), cols⟩ ∧
    (⟨.fullAdditive none none false (some (.lstsq true)), none⟩ : Composer String).train idealEnv herding
      (.tuple [adjectives ty, animals ty']) (animals ty) =
      .ok ⟨.fullAdditive (some ⟨t', A⟩) (some ⟨t', B⟩) ic (some (.lstsq true)), cols⟩ := by
  rcases C161_train_full idealEnv idealEnv_ideal ⟨.fullAdditive none none false (some (.lstsq true)), none⟩ _ _ _ _ (built_lstsq _) rfl
    herding pair _ _ _ _ _ _ _ pair_extract (mixed_pair ty ty') (adjectives_twin .dense _) (animals_twin .sparse _)
    (animals_twin .dense _) (adjectives_wf _) (animals_wf _) (animals_wf _) (adjectives_wf _) (animals_wf _) (animals_wf _)
    (Nat.succ_pos 2) (Nat.succ_pos 2) (Nat.succ_pos 2) with ⟨e, he, _⟩ | h
  · exfalso
    obtain ⟨m, hm, _⟩ := C131_full_additive idealEnv idealEnv_ideal ⟨.fullAdditive none none false (some (.lstsq true)), none⟩ _ _ _ _
      (built_lstsq _) rfl herding pair _ _ (animals .dense) pair_extract (adjectives_wf _) (animals_wf _) (animals_wf _)
      (Nat.succ_pos 2) (Nat.succ_pos 2) (Nat.succ_pos 2) (by rw [herding_kept]; simp [herding])
    rw [he] at hm
    cases hm
  · exact h

theorem number_twins : ∃ s t : Space ℕ, Twin s t ∧ s.WF ∧ t.WF ∧ s.mat.ty = .dense ∧ t.mat.ty = .sparse ∧ s.id2row = [0, 1, 2, 3] ∧
    s.mat.nc = 1 ∧ s.elemShape = [1] := by
  obtain ⟨s, wf, hm, rows, cols, sh⟩ := exists_space (Mat.of 4 1 (fun i _ => (i : ℝ) + 1)) [0, 1, 2, 3] (by decide) rfl none (by simp)
  obtain ⟨d, p, h1, h2, h3, h4, t1, t2, t3⟩ := C161_convert s ⟨by rw [hm]; exact Nat.succ_pos 3, by rw [hm]; exact Nat.succ_pos 0⟩
  exact ⟨d, p, t3, t1.wf wf, t2.wf wf, h3, h4, by rw [← t1.rows, rows], by rw [← t1.nc, hm]; rfl, by rw [← t1.shape, sh]; rfl⟩

/-- C161: lexical functions trained on numbers stored densely and sparsely. -/
example : ∃ (s t : Space ℕ) (r r' : LexFun ℕ) (fs fs' : Space ℕ), s.mat.ty = .dense ∧ t.mat.ty = .sparse ∧
    (lexModel 1).train idealEnv natLe [(9, 0, 1), (8, 0, 2), (9, 1, 3)] s s = .ok r ∧
    (lexModel 1).train idealEnv natLe [(9, 0, 1), (8, 0, 2), (9, 1, 3)] t t = .ok r' ∧ r.functions = some fs ∧
    r'.functions = some fs' ∧ 9 ∈ fs.id2row ∧ 9 ∈ fs'.id2row ∧
    ∀ v, lexVec 1 false (fs.vecOf 9) v 0 = lexVec 1 false (fs'.vecOf 9) v 0 := by
  obtain ⟨s, t, h, w, w', ty, ty', r1, n1, e1⟩ := number_twins
  obtain ⟨m', hm⟩ := ((C131_lexical_iff idealEnv idealEnv_ideal natLe natLe_trans natLe_total natLe_anti (lexModel 1)
    (built_lstsq _) [(9, 0, 1), (8, 0, 2), (9, 1, 3)] s s w w (by simp) (by omega) (by omega) (by rw [e1, n1])
    (by decide)).1).2 ⟨9, by unfold lexSamples; rw [r1]; decide⟩
  rcases C161_train_lexical idealEnv idealEnv_ideal natLe natLe_trans natLe_total natLe_anti (lexModel 1) (built_lstsq _)
    [(9, 0, 1), (8, 0, 2), (9, 1, 3)] s s t t h h w w w' w' (by omega) (by omega) (by rw [e1, n1]) (by decide) (by simp) with
    ⟨he, _⟩ | ⟨r, r', fs, fs', a1, a2, a3, a4, a5, a6, a7, a8, a9⟩
  · rw [hm] at he; cases he
  · obtain ⟨q, fq, b1, b2, b3, _⟩ := C131_lexical_optimal idealEnv idealEnv_ideal natLe natLe_trans natLe_total natLe_anti (lexModel 1)
      (built_lstsq _) [(9, 0, 1), (8, 0, 2), (9, 1, 3)] s s w w (by omega) (by omega) (by rw [e1, n1])
      (by decide) ⟨9, by unfold lexSamples; rw [r1]; decide⟩
    rw [a1] at b1
    obtain rfl := ok_inj b1
    rw [a3] at b2
    injection b2 with b2
    subst b2
    have h9 : 9 ∈ fs.id2row := (b3 9).2 (by unfold lexSamples; rw [r1]; decide)
    refine ⟨s, t, r, r', fs, fs', ty, ty', a1, a2, a3, a4, h9, (a8 9).1 h9, fun v => ?_⟩
    have := a9 9 h9 v 0 (by omega)
    rwa [n1] at this

end Examples
end
end Dissect
