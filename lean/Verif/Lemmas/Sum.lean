import Verif.Lemmas.Harvest
import Mathlib.Algebra.Order.BigOperators.Group.Finset
import Mathlib.Algebra.Order.Group.Nat
import Mathlib.Tactic.Ring
/-!
# Sums over accounts, and reading the vocabulary of `Spec`
-/

namespace Verif

theorem TotalIs.congr {f g : Key → Nat} {n : Nat} (h : TotalIs f n) (e : ∀ k, g k = f k) : TotalIs g n := by
  have : g = f := funext e
  rw [this]; exact h

theorem TotalIs.zero {f : Key → Nat} (h : ∀ k, f k = 0) : TotalIs f 0 :=
  ⟨∅, fun k _ => h k, by simp⟩

theorem TotalIs.on_insert {f : Key → Nat} {n : Nat} (h : TotalIs f n) (a : Key) :
    ∃ S : Finset Key, a ∉ S ∧ (∀ k, k ∉ S → k ≠ a → f k = 0) ∧ f a + ∑ k ∈ S, f k = n := by
  obtain ⟨S, h0, hs⟩ := h
  refine ⟨S.erase a, by simp, fun k hk hka => h0 k (by simp_all), ?_⟩
  by_cases ha : a ∈ S
  · rw [Finset.add_sum_erase _ _ ha]; exact hs
  · rw [Finset.erase_eq_of_notMem ha, h0 a ha]; simpa using hs

/-- Changing one summand changes the total by the same amount. -/
theorem TotalIs.update {f g : Key → Nat} {n m : Nat} {a : Key} (h : TotalIs f n) (hg : ∀ k, k ≠ a → g k = f k)
    (e : m + f a = n + g a) : TotalIs g m := by
  obtain ⟨S, ha, h0, hs⟩ := h.on_insert a
  refine ⟨insert a S, fun k hk => ?_, ?_⟩
  · simp only [Finset.mem_insert, not_or] at hk
    rw [hg k hk.1]; exact h0 k hk.2 hk.1
  · rw [Finset.sum_insert ha]
    have : ∑ k ∈ S, g k = ∑ k ∈ S, f k := Finset.sum_congr rfl fun k hk => hg k (by rintro rfl; exact ha hk)
    omega

theorem TotalIs.le {f : Key → Nat} {n : Nat} (h : TotalIs f n) (a : Key) : f a ≤ n := by
  obtain ⟨S, _, _, hs⟩ := h.on_insert a
  omega

theorem TotalIs.unique {f : Key → Nat} {n m : Nat} (h : TotalIs f n) (h' : TotalIs f m) : n = m := by
  obtain ⟨S, h0, rfl⟩ := h
  obtain ⟨T, h1, rfl⟩ := h'
  rw [Finset.sum_subset (Finset.subset_union_left (s₂ := T)) (fun k _ hk => h0 k hk),
    Finset.sum_subset (Finset.subset_union_right (s₁ := S)) (fun k _ hk => h1 k hk)]

/-- Two different summands together stay below the total. -/
theorem TotalIs.le_two {f : Key → Nat} {n : Nat} (h : TotalIs f n) {a b : Key} (hab : a ≠ b) : f a + f b ≤ n := by
  obtain ⟨S, h0, hs⟩ := h
  have h1 : ∑ k ∈ ({a, b} : Finset Key), f k ≤ ∑ k ∈ S ∪ {a, b}, f k :=
    Finset.sum_le_sum_of_subset (Finset.subset_union_right)
  have h2 : ∑ k ∈ S ∪ {a, b}, f k = n := by
    rw [← hs]; exact (Finset.sum_subset Finset.subset_union_left (fun k _ hk => h0 k hk)).symm
  rw [Finset.sum_pair hab] at h1
  omega

theorem configAt_eq {w : World} {k : Key} {c : Config} :
    configAt w k = some c ↔ (w k).owner = progId ∧ (w k).data = .config c := by
  unfold configAt; split
  · split <;> simp_all
  · simp_all

theorem validatorAt_eq {w : World} {k : Key} {v : ValidatorStake} :
    validatorAt w k = some v ↔ (w k).owner = progId ∧ (w k).data = .validator v := by
  unfold validatorAt; split
  · split <;> simp_all
  · simp_all

theorem solStakerAt_eq {w : World} {k : Key} {v : SolStakerStake} :
    solStakerAt w k = some v ↔ (w k).owner = progId ∧ (w k).data = .solStaker v := by
  unfold solStakerAt; split
  · split <;> simp_all
  · simp_all

theorem stakeAt_eq' {w : World} {k : Key} : stakeAt w k = if (w k).owner = progId then (w k).data.del? else none := by
  unfold stakeAt validatorAt solStakerAt
  by_cases h : (w k).owner = progId
  · simp only [h, if_true]
    cases (w k).data <;> rfl
  · simp only [h, if_false]

theorem stakeAt_eq {w : World} {k : Key} {d : Delegation} :
    stakeAt w k = some d ↔ (w k).owner = progId ∧ (w k).data.del? = some d := by
  rw [stakeAt_eq']; split <;> simp_all

theorem belongs_unique {s c c' : Key} (h : belongs s c) (h' : belongs s c') : c = c' := by
  rcases h with ⟨v, rfl⟩ | ⟨n, rfl⟩ <;> rcases h' with ⟨_, h⟩ | ⟨_, h⟩ <;> simp_all

theorem belongs_validator {v c c' : Key} : belongs (.validatorPda v c) c' ↔ c = c' := by simp [belongs]
theorem belongs_solStaker {v c c' : Key} : belongs (.solStakerPda v c) c' ↔ c = c' := by simp [belongs]
theorem belongs.ofProgram {s c : Key} (h : belongs s c) : s.ofProgram = true := by
  rcases h with ⟨v, rfl⟩ | ⟨n, rfl⟩ <;> rfl

end Verif
