import Verif.Contract
import Verif.Lemmas.Totals
import Verif.Lemmas.Foreign
import Mathlib.Algebra.BigOperators.Ring.Finset
/-!
# What a config owes to its stake accounts, step by step
-/

namespace Verif

variable {env : Env} {o : Oracle} {w w' : World} {ix : Ix}

/-! ## More about totals -/

theorem TotalIs.add {f g : Key → Nat} {n m : Nat} (hf : TotalIs f n) (hg : TotalIs g m) :
    TotalIs (fun k => f k + g k) (n + m) := by
  obtain ⟨S, h0, rfl⟩ := hf
  obtain ⟨T, h1, rfl⟩ := hg
  refine ⟨S ∪ T, fun k hk => ?_, ?_⟩
  · simp only [Finset.mem_union, not_or] at hk; simp [h0 k hk.1, h1 k hk.2]
  · rw [Finset.sum_add_distrib,
      Finset.sum_subset (Finset.subset_union_left (s₂ := T)) (fun k _ hk => h0 k hk),
      Finset.sum_subset (Finset.subset_union_right (s₁ := S)) (fun k _ hk => h1 k hk)]

theorem TotalIs.mul {f : Key → Nat} {n : Nat} (a : Nat) (hf : TotalIs f n) : TotalIs (fun k => a * f k) (a * n) := by
  obtain ⟨S, h0, rfl⟩ := hf
  exact ⟨S, fun k hk => by simp [h0 k hk], by rw [Finset.mul_sum]⟩

/-- A function below one with a total has a smaller total. -/
theorem TotalIs.below {f g : Key → Nat} {n : Nat} (hf : TotalIs f n) (h : ∀ k, g k ≤ f k) : ∃ m ≤ n, TotalIs g m := by
  obtain ⟨S, h0, rfl⟩ := hf
  exact ⟨∑ k ∈ S, g k, Finset.sum_le_sum fun k _ => h k,
    S, fun k hk => Nat.eq_zero_of_le_zero (by rw [← h0 k hk]; exact h k), rfl⟩

/-! ## Accumulators -/

theorem growth_self (a : Nat) : growth a a = 0 := by unfold growth; simp

theorem wrapSub_eq (a b : Nat) : wrapSub a b = growth b a := rfl

theorem growth_triangle {a b : Nat} (ha : a < U128) (hb : b < U128) (c : Nat) :
    growth a c ≤ growth a b + growth b c := by
  unfold growth; unfold U128 at *; omega

theorem growth_add {a : Nat} (ha : a < U128) (r : Nat) : growth a ((a + r) % U128) ≤ r := by
  unfold growth; unfold U128 at *; omega

theorem eligible_le {current last balance n : Nat} (h : eligibleRewards current last balance = .ok n) :
    scale * n ≤ growth last current * balance := by
  rw [← wrapSub_eq]
  simp only [eligibleRewards, ite_ok, ok_ok, mulDivU64_ok] at h
  rcases h with ⟨_, rfl⟩ | ⟨_, _, rfl⟩
  · simp
  · exact Nat.mul_div_le _ _

/-! ## Claims -/

/-- What an account has earned but not been paid, in units of a lamport over the scaling factor, when the stake
accumulator stands at `acc` and the vault's holder rewards at `hacc`. -/
def claim (w : World) (ck : Key) (acc hacc : Nat) (k : Key) : Nat :=
  if belongs k ck then
    match stakeAt w k with
    | some d => growth d.lastStake acc * d.effective + growth d.lastHolder hacc * d.staked
    | none => 0
  else 0

theorem claim_some {ck k : Key} {acc hacc : Nat} {d : Delegation} (hb : belongs k ck) (hd : stakeAt w k = some d) :
    claim w ck acc hacc k = growth d.lastStake acc * d.effective + growth d.lastHolder hacc * d.staked := by
  simp [claim, hb, hd]

theorem claim_congr {ck k : Key} {acc hacc : Nat} (h : belongs k ck → stakeAt w' k = stakeAt w k) :
    claim w' ck acc hacc k = claim w ck acc hacc k := by
  unfold claim; split_ifs with hb
  · rw [h hb]
  · rfl

/-- The markers of every stake account are machine integers. -/
theorem Inv.markers (I : Inv env w) {k : Key} {d : Delegation} (h : stakeAt w k = some d) :
    d.lastStake < U128 ∧ d.lastHolder < U128 := by
  have := wf_del (I.wf.1 k).2 (stakeAt_eq.1 h).2
  exact ⟨this.2.2.2.2, this.2.2.2.1⟩

theorem claim_le_acc (I : Inv env w) (ck : Key) {acc acc' : Nat} (ha : acc < U128) (hacc : Nat) (k : Key) :
    claim w ck acc' hacc k ≤ claim w ck acc hacc k + growth acc acc' * effectiveIn w ck k := by
  unfold claim effectiveIn
  split_ifs with hb
  · cases hd : stakeAt w k with
    | none => simp
    | some d =>
      have h1 := Nat.mul_le_mul_right d.effective (growth_triangle (I.markers hd).1 ha acc')
      rw [Nat.add_mul] at h1
      simp only [Option.map_some, Option.getD_some]
      omega
  · simp

theorem claim_le_hacc (I : Inv env w) (ck : Key) {hacc hacc' : Nat} (ha : hacc < U128) (acc : Nat) (k : Key) :
    claim w ck acc hacc' k ≤ claim w ck acc hacc k + growth hacc hacc' * stakedIn w ck k := by
  unfold claim stakedIn
  split_ifs with hb
  · cases hd : stakeAt w k with
    | none => simp
    | some d =>
      have h1 := Nat.mul_le_mul_right d.staked (growth_triangle (I.markers hd).2 ha hacc')
      rw [Nat.add_mul] at h1
      simp only [Option.map_some, Option.getD_some]
      omega
  · simp

/-! ## Coverage -/

variable {X : Nat}

/-- The claims on config `ck` and a reserve of `X` (in units of 1e-18 lamports) are covered by `funds` lamports. -/
def Funded (X : Nat) (w : World) (ck : Key) (acc hacc funds : Nat) : Prop :=
  ∃ T, TotalIs (claim w ck acc hacc) T ∧ T + X ≤ scale * funds

theorem Funded.mono {ck : Key} {acc hacc f f' : Nat} (F : Funded X w ck acc hacc f) (h : f ≤ f') :
    Funded X w ck acc hacc f' := by
  obtain ⟨T, h1, h2⟩ := F
  exact ⟨T, h1, h2.trans (Nat.mul_le_mul_left _ h)⟩

theorem Funded.congr {ck : Key} {acc hacc f : Nat} (F : Funded X w ck acc hacc f)
    (h : ∀ k, belongs k ck → stakeAt w' k = stakeAt w k) : Funded X w' ck acc hacc f := by
  obtain ⟨T, h1, h2⟩ := F
  exact ⟨T, h1.congr fun k => claim_congr (h k), h2⟩

/-- Counting newly arrived lamports. -/
theorem Funded.sync (I : Inv env w) {ck : Key} {c : Config} (hc : configAt w ck = some c) {hacc l B : Nat}
    (hl : c.lamportsLast ≤ l) (F : Funded X w ck c.acc hacc (c.lamportsLast + B)) :
    Funded X w ck (accNow c l) hacc (l + B) := by
  obtain ⟨T, h1, h2⟩ := F
  have hcw : c.WF := wf_config I (configAt_eq.1 hc).2
  have hacc' := hcw.2.2.2.2.1
  have E := (I.config ck c hc).total
  obtain ⟨T', hT, hT'⟩ := (h1.add (E.mul (growth c.acc (accNow c l)))).below (claim_le_acc I ck hacc' hacc)
  refine ⟨T', hT', ?_⟩
  have h3 : growth c.acc (accNow c l) ≤ (l - c.lamportsLast) * scale / c.effTotal := growth_add hacc' _
  have h4 := Nat.mul_le_mul_right c.effTotal h3
  have h5 := Nat.div_mul_le_self ((l - c.lamportsLast) * scale) c.effTotal
  have h6 : scale * (l + B) = scale * (c.lamportsLast + B) + (l - c.lamportsLast) * scale := by
    rw [Nat.mul_comm _ scale, ← Nat.mul_add]; congr 1; omega
  omega

/-- The vault's holder rewards move on. -/
theorem Funded.holder (I : Inv env w) {ck : Key} {acc hacc hacc' f q t : Nat} (ha : hacc < U128)
    (S : TotalIs (stakedIn w ck) t) {y : Nat} (hq : growth hacc hacc' * t + y ≤ scale * q)
    (F : Funded X w ck acc hacc f) : Funded (X + y) w ck acc hacc' (f + q) := by
  obtain ⟨T, h1, h2⟩ := F
  obtain ⟨T', hT, hT'⟩ := (h1.add (S.mul (growth hacc hacc'))).below (claim_le_hacc I ck ha acc)
  exact ⟨T', hT', by rw [Nat.mul_add]; omega⟩

/-- One account's claim is replaced by one of at most `q` lamports. -/
theorem Funded.replace {ck sk : Key} {acc hacc f n q : Nat} (F : Funded X w ck acc hacc f)
    (hother : ∀ k, k ≠ sk → belongs k ck → stakeAt w' k = stakeAt w k) (hz : claim w' ck acc hacc sk ≤ scale * q)
    (hn : scale * n ≤ claim w ck acc hacc sk) : Funded X w' ck acc hacc (f - n + q) := by
  obtain ⟨T, h1, h2⟩ := F
  have hle := h1.le sk
  refine ⟨T - claim w ck acc hacc sk + claim w' ck acc hacc sk,
    h1.update (a := sk) (fun k hk => claim_congr (hother k hk)) (by omega), ?_⟩
  rw [Nat.mul_add, Nat.mul_sub]; omega

/-- One account's claim is replaced by nothing. -/
theorem Funded.settle {ck sk : Key} {acc hacc f n : Nat} (F : Funded X w ck acc hacc f)
    (hother : ∀ k, k ≠ sk → belongs k ck → stakeAt w' k = stakeAt w k) (hz : claim w' ck acc hacc sk = 0)
    (hn : scale * n ≤ claim w ck acc hacc sk) : Funded X w' ck acc hacc (f - n) :=
  F.replace (q := 0) hother (by omega) hn

/-- A config whose claims are covered, `B` lamports being available elsewhere. -/
def Covered (X : Nat) (ck : Key) (hacc B : Nat) (w : World) : Prop :=
  ∃ c, configAt w ck = some c ∧ Funded X w ck c.acc hacc (c.lamportsLast + B)

theorem Covered.mono {ck : Key} {hacc B B' : Nat} (C : Covered X ck hacc B w) (h : B ≤ B') : Covered X ck hacc B' w := by
  obtain ⟨c, hc, F⟩ := C
  exact ⟨c, hc, F.mono (by omega)⟩

theorem Covered.congr {ck : Key} {hacc B : Nat} (C : Covered X ck hacc B w)
    (hc : st w' ck = st w ck) (h : ∀ k, belongs k ck → st w' k = st w k) : Covered X ck hacc B w' := by
  obtain ⟨c, hc', F⟩ := C
  exact ⟨c, by rw [configAt_congr hc]; exact hc', F.congr fun k hk => stakeAt_congr (h k hk)⟩

/-- A config whose claims are covered once newly arrived lamports are counted, `B` lamports being available elsewhere. -/
def Primed (X : Nat) (ck : Key) (hacc B : Nat) (w : World) : Prop :=
  ∃ c, configAt w ck = some c ∧ Funded X w ck (accNow c (w ck).lamports) hacc ((w ck).lamports + B)

theorem Covered.ready (I : Inv env w) {ck : Key} {hacc B : Nat} (C : Covered X ck hacc B w) : Primed X ck hacc B w := by
  obtain ⟨c, hc, F⟩ := C
  exact ⟨c, hc, F.sync I hc (I.config ck c hc).last_le⟩

/-- Without effective stake nobody is credited for newly arrived lamports. -/
theorem Covered.ready_idle (I : Inv env w) {ck : Key} {c : Config} {hacc B : Nat} (hc : configAt w ck = some c)
    (h0 : c.effTotal = 0) (C : Covered X ck hacc B w) :
    Primed (X + scale * ((w ck).lamports - c.lamportsLast)) ck hacc B w := by
  obtain ⟨c0, hc0, T, hT, hle⟩ := C
  rw [hc] at hc0; cases hc0
  have hacc' := (wf_config I (configAt_eq.1 hc).2).2.2.2.2.1
  have e : accNow c (w ck).lamports = c.acc := by
    unfold accNow; rw [h0, Nat.div_zero, Nat.add_zero]; exact Nat.mod_eq_of_lt hacc'
  refine ⟨c, hc, T, by rw [e]; exact hT, ?_⟩
  have := (I.config ck c hc).last_le
  have h6 : scale * ((w ck).lamports + B) = scale * (c.lamportsLast + B) + scale * ((w ck).lamports - c.lamportsLast) := by
    rw [← Nat.mul_add]; congr 1; omega
  omega

theorem Primed.harvest (I : Inv env w) {ck hk auth va sk : Key} {keeper : Option Key} {c : Config} {d : Delegation}
    {h : HolderRewards} {rs rh B : Nat} (H : Harvested env w w' ck hk auth va sk keeper c d h rs rh)
    (hcO : (w ck).owner = progId) (hsO : (w sk).owner = progId) (hb : belongs sk ck)
    (C : Primed X ck h.lastAcc B w) : Covered X ck h.lastAcc B w' := by
  obtain ⟨c0, hc0, F1⟩ := C
  have hc := configAt_eq.2 ⟨hcO, H.config⟩
  rw [hc] at hc0; cases hc0
  have hd := stakeAt_eq.2 ⟨hsO, H.del⟩
  refine ⟨_, configAt_eq.2 ⟨by rw [H.owner]; exact hcO, H.config'⟩, ?_⟩
  have hd' : stakeAt w' sk = some (d.marked (accNow c (w ck).lamports) h.lastAcc) :=
    stakeAt_eq.2 ⟨by rw [H.owner]; exact hsO, H.del'⟩
  have F2 := F1.settle (w' := w') (sk := sk) (n := rs + rh) ?_ ?_ ?_
  · refine F2.mono ?_
    have := H.rent
    simp only
    omega
  · intro k hk hkb
    refine stakeAt_congr (st_congr (by rw [H.owner]) ?_)
    exact H.data' k (by rintro rfl; have := I.config_key hc; rw [hkb.ofProgram] at this; simp at this) hk
  · rw [claim_some hb hd']; simp [Delegation.marked, growth_self]
  · rw [claim_some hb hd, Nat.mul_add]
    exact Nat.add_le_add (eligible_le H.rs_eq) (eligible_le H.rh_eq)

theorem Covered.harvest (I : Inv env w) {ck hk auth va sk : Key} {keeper : Option Key} {c : Config} {d : Delegation}
    {h : HolderRewards} {rs rh B : Nat} (H : Harvested env w w' ck hk auth va sk keeper c d h rs rh)
    (hcO : (w ck).owner = progId) (hsO : (w sk).owner = progId) (hb : belongs sk ck)
    (C : Covered X ck h.lastAcc B w) : Covered X ck h.lastAcc B w' := (C.ready I).harvest I H hcO hsO hb

theorem Covered.replace (I : Inv env w) {ck sk : Key} {D' : Data} {c : Config} {d d' : Delegation} {hacc B q : Nat}
    (A : Adjusted w w' ck sk D' c d d') (hcO : (w ck).owner = progId) (hsO : (w sk).owner = progId)
    (hb : belongs sk ck) (hs : growth d'.lastStake c.acc * d'.effective ≤ scale * q) (hh : d'.lastHolder = hacc)
    (C : Covered X ck hacc B w) : Covered X ck hacc (B + q) w' := by
  obtain ⟨c0, hc0, F⟩ := C
  have hc := configAt_eq.2 ⟨hcO, A.config⟩
  rw [hc] at hc0; cases hc0
  refine ⟨_, configAt_eq.2 ⟨by rw [A.owner]; exact hcO, A.config'⟩, ?_⟩
  have hd' : stakeAt w' sk = some d' := stakeAt_eq.2 ⟨by rw [A.owner]; exact hsO, by rw [A.stake']; exact A.del'⟩
  refine (F.replace (w' := w') (sk := sk) (n := 0) (q := q) ?_ ?_ (by simp)).mono (by simp only; omega)
  · intro k hk hkb
    refine stakeAt_congr (st_congr (by rw [A.owner]) ?_)
    exact A.data' k (by rintro rfl; have := I.config_key hc; rw [hkb.ofProgram] at this; simp at this) hk
  · rw [claim_some hb hd', hh, growth_self, Nat.zero_mul]; exact hs

theorem Covered.adjust (I : Inv env w) {ck sk : Key} {D' : Data} {c : Config} {d d' : Delegation} {hacc B : Nat}
    (A : Adjusted w w' ck sk D' c d d') (hcO : (w ck).owner = progId) (hsO : (w sk).owner = progId)
    (hb : belongs sk ck) (hs : d'.lastStake = c.acc) (hh : d'.lastHolder = hacc)
    (C : Covered X ck hacc B w) : Covered X ck hacc B w' :=
  C.replace (q := 0) I A hcO hsO hb (by rw [hs, growth_self]; simp) hh

end Verif
