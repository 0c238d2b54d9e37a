import Verif.Lemmas.Cover
/-!
# Lamports of the accounts of an instruction
-/

namespace Verif

variable {env : Env} {o : Oracle} {w w' : World} {ix : Ix}

theorem sum_eraseDups (f : Key → Nat) (n : Nat) (l : List Key) (hn : l.length ≤ n) :
    (l.eraseDups.map f).sum = ∑ k ∈ l.toFinset, f k := by
  induction n generalizing l with
  | zero => cases l <;> simp_all
  | succ n ih =>
    cases l with
    | nil => simp
    | cons a l =>
      have hl : (l.filter fun b => !b == a).length ≤ n :=
        (List.length_filter_le _ _).trans (by simpa using hn)
      rw [List.eraseDups_cons, List.map_cons, List.sum_cons, ih _ hl]
      have e : (a :: l).toFinset = insert a (l.filter fun b => !b == a).toFinset := by
        ext x; simp only [List.toFinset_cons, Finset.mem_insert, List.mem_toFinset, List.mem_filter]
        by_cases hx : x = a <;> simp [hx]
      rw [e, Finset.sum_insert (by simp)]

theorem lamportSum_eq (w : World) (l : List Key) : lamportSum w l = ∑ k ∈ l.toFinset, (w k).lamports :=
  sum_eraseDups _ _ l (Nat.le_refl _)

theorem sum_change {f g : Key → Nat} {S : Finset Key} {a : Key} (ha : a ∈ S) (h : ∀ k, k ≠ a → g k = f k) :
    ∑ k ∈ S, g k + f a = ∑ k ∈ S, f k + g a := by
  rw [← Finset.add_sum_erase S g ha, ← Finset.add_sum_erase S f ha]
  have : ∑ k ∈ S.erase a, g k = ∑ k ∈ S.erase a, f k :=
    Finset.sum_congr rfl fun k hk => h k (Finset.ne_of_mem_erase hk)
  omega

/-- A settlement conserves lamports unless the config account is itself a payee. -/
theorem Harvested.sum {ck hk auth va sk : Key} {keeper : Option Key} {c : Config} {d : Delegation} {h : HolderRewards}
    {rs rh : Nat} (H : Harvested env w w' ck hk auth va sk keeper c d h rs rh) {l : List Key} (hck : ck ∈ l)
    (hauth : auth ∈ l) (hkeep : ∀ k, keeper = some k → k ∈ l) (hne : keeper ≠ some ck) :
    lamportSum w' l = lamportSum w l + if auth = ck then rs + rh else 0 := by
  rw [lamportSum_eq, lamportSum_eq]
  have hlam := H.lamports'
  have hrent := H.rent
  generalize hsh : keeperReward keeper (rs + rh) c.syncRewards = share at hlam
  have hshare : share ≤ rs + rh := by
    rw [← hsh]; unfold keeperReward; split
    · exact Nat.min_le_left _ _
    · omega
  have hck' : ck ∈ l.toFinset := by simpa using hck
  have hau' : auth ∈ l.toFinset := by simpa using hauth
  -- first the keeper, then the config, then the authority
  let f0 : Key → Nat := fun k => (w k).lamports
  let f1 : Key → Nat := fun k => if keeper = some k then f0 k + share else f0 k
  let f2 : Key → Nat := fun k => if k = ck then f0 ck - (rs + rh) else f1 k
  let f3 : Key → Nat := fun k => if k = auth then f1 auth + (rs + rh - share) else f2 k
  have e3 : ∀ k, (w' k).lamports = f3 k := by
    intro k
    rw [hlam k]
    simp only [f3, f2, f1, f0, authAfterKeeper]
  have s1 : ∑ k ∈ l.toFinset, f1 k = ∑ k ∈ l.toFinset, f0 k + if keeper = none then 0 else share := by
    cases hk : keeper with
    | none => simp [f1, hk]
    | some kp =>
      have hm : kp ∈ l.toFinset := by simpa using hkeep kp hk
      have := sum_change (f := f0) (g := f1) hm (by
        intro k hk'; simp only [f1, hk, Option.some.injEq]; rw [if_neg (Ne.symm hk')])
      simp only [f1, hk, if_true] at this ⊢
      simp only [reduceCtorEq, if_false]
      omega
  have s2 := sum_change (f := f1) (g := f2) hck' (by intro k hk; simp only [f2, if_neg hk])
  have s3 := sum_change (f := f2) (g := f3) hau' (by intro k hk; simp only [f3, if_neg hk])
  have hf1 : f1 ck = f0 ck := by simp only [f1, if_neg hne]
  have hf2 : f2 ck = f0 ck - (rs + rh) := by simp only [f2, if_true]
  have hf3 : f3 auth = f1 auth + (rs + rh - share) := by simp only [f3, if_true]
  have hz : (if keeper = none then 0 else share) = share := by
    split
    · rename_i hk; rw [← hsh, hk]; rfl
    · rfl
  rw [hz] at s1
  have hr : rs + rh ≤ f0 ck := by simp only [f0]; omega
  rw [Finset.sum_congr rfl fun k _ => e3 k]
  show ∑ k ∈ l.toFinset, f3 k = ∑ k ∈ l.toFinset, f0 k + _
  have hf2' : auth ≠ ck → f2 auth = f1 auth := fun ha => by simp only [f2, if_neg ha]
  clear e3 hz hlam hrent
  clear_value f3 f2 f1 f0
  split_ifs with ha
  · subst ha; omega
  · have := hf2' ha
    omega

theorem Adjusted.sum {ck sk : Key} {D' : Data} {c : Config} {d d' : Delegation} (A : Adjusted w w' ck sk D' c d d')
    (l : List Key) : lamportSum w' l = lamportSum w l := by
  rw [lamportSum_eq, lamportSum_eq]; exact Finset.sum_congr rfl fun k _ => A.lamports k

theorem Retotaled.sum {ck hk auth sk : Key} {v : ValidatorStake} {total : Nat} {c : Config}
    {hr : HolderRewards} {rs rh : Nat} {w1 : World} {c1 : Config} {d1 d2 : Delegation}
    (R : Retotaled env w w' ck hk auth sk v total c hr rs rh w1 c1 d1 d2) {l : List Key} (hck : ck ∈ l)
    (hauth : auth ∈ l) : lamportSum w' l = lamportSum w l + if auth = ck then rs + rh else 0 := by
  rw [R.adj.sum, R.harv.sum hck hauth (by simp) (by simp)]

/-- The config's record of its lamports agrees with its lamports. -/
def Settled (ck : Key) (acc : Nat) (w : World) : Prop :=
  ∃ c, (w ck).data = .config c ∧ c.acc = acc ∧ c.lamportsLast = (w ck).lamports

theorem Settled.accNow {ck : Key} {acc : Nat} (S : Settled ck acc w) (W : w.WF) {c : Config}
    (hc : (w ck).data = .config c) : accNow c (w ck).lamports = acc ∧ c.acc = acc := by
  obtain ⟨c', hc', h1, h2⟩ := S
  rw [hc] at hc'; cases hc'
  have : c.acc < U128 := by
    have := (W.1 ck).2; rw [hc] at this; exact this.2.2.2.2.1
  refine ⟨?_, h1⟩
  unfold Verif.accNow
  rw [h2, Nat.sub_self, Nat.zero_mul, Nat.zero_div, Nat.add_zero, Nat.mod_eq_of_lt this, h1]

theorem Harvested.settled {ck hk auth va sk : Key} {keeper : Option Key} {c : Config} {d : Delegation}
    {h : HolderRewards} {rs rh : Nat} (H : Harvested env w w' ck hk auth va sk keeper c d h rs rh)
    (hne : keeper ≠ some ck) (ha : auth = ck → rs + rh = 0) : Settled ck (accNow c (w ck).lamports) w' := by
  refine ⟨_, H.config', rfl, ?_⟩
  have h0 : keeperReward keeper 0 c.syncRewards = 0 := by
    unfold keeperReward; split
    · exact Nat.min_eq_left (Nat.zero_le _)
    · rfl
  rw [H.lamports']
  rw [if_pos (rfl : ck = ck)]
  split_ifs with h1
  · subst h1
    rw [ha rfl, h0]
    simp only [authAfterKeeper, if_neg hne]; omega
  · rfl

theorem Adjusted.settled {ck sk : Key} {D' : Data} {c : Config} {d d' : Delegation} (A : Adjusted w w' ck sk D' c d d')
    {acc : Nat} (S : Settled ck acc w) : Settled ck acc w' := by
  obtain ⟨c', hc', h1, h2⟩ := S
  rw [A.config] at hc'; cases hc'
  exact ⟨_, A.config', h1, by rw [A.lamports]; exact h2⟩

end Verif
