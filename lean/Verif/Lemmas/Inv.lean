import Verif.Lemmas.Sum
/-!
# The invariant of reachable worlds
-/

namespace Verif

/-- Same kind of account with the same identity. -/
inductive Ident : Data → Data → Prop
  | config {c c'} : Ident (.config c) (.config c')
  | validator {v v' : ValidatorStake} : v'.del.vote = v.del.vote → Ident (.validator v) (.validator v')
  | solStaker {s s' : SolStakerStake} : s'.solStake = s.solStake → Ident (.solStaker s) (.solStaker s')
  | refl {d} : Ident d d

/-- What the address of an account owned by the program says about its data. -/
def Shape (w : World) : Key → Prop
  | .validatorPda v c =>
    ∃ x, (w (.validatorPda v c)).data = .validator x ∧ x.del.vote = v ∧ v ≠ .default ∧ (configAt w c).isSome
  | .solStakerPda n c =>
    ∃ x, (w (.solStakerPda n c)).data = .solStaker x ∧ x.solStake = n ∧ (configAt w c).isSome ∧
      (x.del.vote = .default ∨ (validatorAt w (.validatorPda x.del.vote c)).isSome)
  | .vaultPda c b => (w (.vaultPda c b)).data = .bytes []
  | .overridePda _ _ => False
  | k => (w k).data.zeroed ∨ ∃ c, (w k).data = .config c

/-- Facts about one initialised config. -/
structure ConfigOk (env : Env) (w : World) (k : Key) (c : Config) : Prop where
  last_le : c.lamportsLast ≤ (w k).lamports
  bps : c.maxBps ≤ maxBasisPoints
  bump : c.bump = env.vaultBump k
  rent : env.rentMin configLen ≤ (w k).lamports
  total : TotalIs (effectiveIn w k) c.effTotal

/-- Facts about the data of one stake account. -/
def StakeOk : Data → Prop
  | .validator v => v.del.effective ≤ v.del.staked ∧ v.del.effective ≤ cap (max v.total v.min)
  | .solStaker s => s.del.effective = min s.del.staked (cap s.lamports)
  | _ => True

/-- The invariant. -/
structure Inv (env : Env) (w : World) : Prop where
  wf : w.WF
  shape : ∀ k, (w k).owner = progId → Shape w k
  unowned : ∀ k, k.ofProgram = true → (w k).owner ≠ progId → (w k).owner = systemId ∧ (w k).data = .bytes []
  config : ∀ k c, configAt w k = some c → ConfigOk env w k c
  stake : ∀ k, (w k).owner = progId → StakeOk (w k).data
  rent : ∀ k d, stakeAt w k = some d → env.rentMin (w k).data.len ≤ (w k).lamports

theorem cap_mono {a b : Nat} (h : a ≤ b) : cap a ≤ cap b := by unfold cap; omega

/-- A config lives at an address that is not derived from the program. -/
theorem Inv.config_key {env : Env} {w : World} (I : Inv env w) {k : Key} {c : Config} (h : configAt w k = some c) :
    k.ofProgram = false := by
  rw [configAt_eq] at h
  have := I.shape k h.1
  cases k <;> simp_all [Shape, Key.ofProgram]

theorem Inv.stake_key {env : Env} {w : World} (I : Inv env w) {k : Key} {d : Delegation} (h : stakeAt w k = some d) :
    ∃ c, belongs k c ∧ (configAt w c).isSome := by
  rw [stakeAt_eq] at h
  have := I.shape k h.1
  cases k
  case validatorPda v c =>
    obtain ⟨x, _, _, _, h⟩ := this; exact ⟨c, by simp [belongs], h⟩
  case solStakerPda v c =>
    obtain ⟨x, _, _, h, _⟩ := this; exact ⟨c, by simp [belongs], h⟩
  all_goals
    exfalso
    simp only [Shape] at this
    try
      (rcases this with ⟨n, hn⟩ | ⟨c, hc⟩
       · rw [hn] at h; simp [Data.del?] at h
       · rw [hc] at h; simp [Data.del?] at h)
  rw [this] at h; simp [Data.del?] at h

theorem Ident.config_left {c : Config} {d : Data} (h : Ident (.config c) d) : ∃ c', d = .config c' := by
  cases h <;> exact ⟨_, rfl⟩

theorem Ident.validator_left {v : ValidatorStake} {d : Data} (h : Ident (.validator v) d) :
    ∃ v', d = .validator v' ∧ v'.del.vote = v.del.vote := by
  cases h with
  | validator h => exact ⟨_, rfl, h⟩
  | refl => exact ⟨_, rfl, rfl⟩

theorem Ident.solStaker_left {v : SolStakerStake} {d : Data} (h : Ident (.solStaker v) d) :
    ∃ v', d = .solStaker v' ∧ v'.solStake = v.solStake := by
  cases h with
  | solStaker h => exact ⟨_, rfl, h⟩
  | refl => exact ⟨_, rfl, rfl⟩

theorem Ident.bytes_left {b : List UInt8} {d : Data} (h : Ident (.bytes b) d) : d = .bytes b := by
  cases h; rfl

theorem Ident.len {d d' : Data} (h : Ident d d') : d'.len = d.len := by
  cases h <;> rfl

theorem Ident.del_left {d d' : Data} (h : Ident d d') {x : Delegation} (hx : d'.del? = some x) :
    ∃ y, d.del? = some y := by
  cases h <;> simp_all [Data.del?]

theorem Ident.del_right {d d' : Data} (h : Ident d d') {x : Delegation} (hx : d.del? = some x) :
    ∃ y, d'.del? = some y := by
  cases h <;> simp_all [Data.del?]

/-- Data of accounts owned by the program changes only within its kind, owners stay. -/
structure SameIdent (w w' : World) : Prop where
  owner : ∀ k, (w' k).owner = (w k).owner
  ident : ∀ k, (w k).owner = progId → Ident (w k).data (w' k).data
  derived : ∀ k, k.ofProgram = true → (w k).owner ≠ progId → (w' k).data = (w k).data

theorem SameIdent.config_isSome {w w' : World} (h : SameIdent w w') {k : Key} :
    (configAt w k).isSome → (configAt w' k).isSome := by
  intro hk
  obtain ⟨c, hc⟩ := Option.isSome_iff_exists.1 hk
  rw [configAt_eq] at hc
  have := h.ident k hc.1
  rw [hc.2] at this
  obtain ⟨c', hc'⟩ := this.config_left
  exact Option.isSome_iff_exists.2 ⟨c', configAt_eq.2 ⟨by rw [h.owner, hc.1], hc'⟩⟩

theorem SameIdent.validator_isSome {w w' : World} (h : SameIdent w w') {k : Key} :
    (validatorAt w k).isSome → (validatorAt w' k).isSome := by
  intro hk
  obtain ⟨c, hc⟩ := Option.isSome_iff_exists.1 hk
  rw [validatorAt_eq] at hc
  have := h.ident k hc.1
  rw [hc.2] at this
  obtain ⟨c', hc', _⟩ := this.validator_left
  exact Option.isSome_iff_exists.2 ⟨c', validatorAt_eq.2 ⟨by rw [h.owner, hc.1], hc'⟩⟩

/-- Preservation of the structural part of the invariant by changes that keep identities. -/
theorem SameIdent.shape {env : Env} {w w' : World} (I : Inv env w) (h : SameIdent w w')
    (hv : ∀ n c x, (w (.solStakerPda n c)).owner = progId → (w' (.solStakerPda n c)).data = .solStaker x →
      x.del.vote = .default ∨ (validatorAt w (.validatorPda x.del.vote c)).isSome)
    (k : Key) (hk : (w' k).owner = progId) : Shape w' k := by
  rw [h.owner] at hk
  have hs := I.shape k hk
  have hi := h.ident k hk
  cases k
  case validatorPda v c =>
    obtain ⟨x, hx, hxv, hv', hc⟩ := hs
    rw [hx] at hi
    obtain ⟨x', hx', hxv'⟩ := hi.validator_left
    exact ⟨x', hx', by rw [hxv', hxv], hv', h.config_isSome hc⟩
  case solStakerPda n c =>
    obtain ⟨x, hx, hxn, hc, _⟩ := hs
    rw [hx] at hi
    obtain ⟨x', hx', hxn'⟩ := hi.solStaker_left
    refine ⟨x', hx', by rw [hxn', hxn], h.config_isSome hc, ?_⟩
    exact (hv n c x' hk hx').imp id h.validator_isSome
  case vaultPda c b =>
    simp only [Shape] at hs ⊢
    rw [hs] at hi; exact hi.bytes_left
  case overridePda => exact hs
  all_goals
    simp only [Shape] at hs ⊢
    rcases hs with ⟨n, hn⟩ | ⟨c, hc⟩
    · rw [hn] at hi; exact Or.inl ⟨n, hi.bytes_left⟩
    · rw [hc] at hi; exact Or.inr hi.config_left

/-- A general preservation lemma. -/
theorem Inv.preserve {env : Env} {w w' : World} (I : Inv env w) (h : SameIdent w w') (wf : w'.WF)
    (hv : ∀ n c x, (w (.solStakerPda n c)).owner = progId → (w' (.solStakerPda n c)).data = .solStaker x →
      x.del.vote = .default ∨ (validatorAt w (.validatorPda x.del.vote c)).isSome)
    (hconf : ∀ k c', configAt w' k = some c' → ConfigOk env w' k c')
    (hstake : ∀ k, (w' k).owner = progId → StakeOk (w' k).data)
    (hlam : ∀ k, k.ofProgram = true → (w k).owner = progId → (w k).data ≠ .bytes [] → (w k).lamports ≤ (w' k).lamports) :
    Inv env w' where
  wf := wf
  shape := h.shape I hv
  unowned := by
    intro k hk ho
    rw [h.owner] at ho ⊢
    rw [h.derived k hk ho]
    exact I.unowned k hk ho
  config := hconf
  stake := hstake
  rent := by
    intro k d hd
    rw [stakeAt_eq] at hd
    rw [h.owner] at hd
    have hi := h.ident k hd.1
    have hold : ∃ d, (w k).data.del? = some d := by
      exact hi.del_left hd.2
    obtain ⟨d0, hd0⟩ := hold
    have h1 := I.rent k d0 (stakeAt_eq.2 ⟨hd.1, hd0⟩)
    obtain ⟨c, hc, _⟩ := I.stake_key (stakeAt_eq.2 ⟨hd.1, hd0⟩)
    have h2 := hlam k hc.ofProgram hd.1 (by rintro e; rw [e] at hd0; simp [Data.del?] at hd0)
    rw [hi.len]
    omega

end Verif
