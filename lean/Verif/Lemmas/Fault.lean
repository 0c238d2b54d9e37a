import Verif.Lemmas.BlameIx
import Verif.SpecFaults
/-!
# Where the standard errors come from
-/

namespace Verif

variable {env : Env} {o : Oracle} {ctx : Ctx} {w w' w1 : World} {ix : Ix} {α β : Type} {Q : Err → Prop}

/-- If the computation fails, its error satisfies `Q`. -/
def Blames (x : Res α) (Q : Err → Prop) : Prop := ∀ e, x = .error e → Q e

theorem Blames.bind {x : Res α} {f : α → Res β} (h : Blames x Q) (k : ∀ a, x = .ok a → Blames (f a) Q) :
    Blames (x >>= f) Q := by
  intro e he
  cases hx : x with
  | error y => rw [hx] at he; cases he; exact h _ hx
  | ok a => rw [hx] at he; exact k a hx e he

theorem Blames.req {p : Prop} [Decidable p] {y : Err} (h : ¬ p → Q y) : Blames (require p y) Q := by
  intro e he
  unfold require at he
  split at he
  · cases he
  · rename_i hp; cases he; exact h hp

theorem Blames.reqBind {p : Prop} [Decidable p] {y : Err} {f : Unit → Res β} (h : ¬ p → Q y) (k : p → Blames (f ()) Q) :
    Blames (require p y >>= f) Q := Blames.bind (.req h) fun _ ha => k ((require_ok.1 ha))

theorem Blames.ok {a : α} : Blames (.ok a : Res α) Q := by intro e he; cases he
theorem Blames.pure {a : α} : Blames (Pure.pure a : Res α) Q := by intro e he; cases he
theorem Blames.error {e : Err} (h : Q e) : Blames (.error e : Res α) Q := by intro e' he; cases he; exact h
theorem Blames.ite {p : Prop} [Decidable p] {x y : Res α} (h1 : p → Blames x Q) (h2 : ¬ p → Blames y Q) :
    Blames (if p then x else y) Q := by split <;> [exact h1 ‹_›; exact h2 ‹_›]

/-- Errors that neither this file nor `Lemmas/Rules.lean` says anything about. -/
class Unsaid (Q : Err → Prop) : Prop where
  stake : ∀ e, Q (.stake e)
  panic : Q .panic
  arith : Q .arithmeticOverflow
  cpi : Q .cpi

/-- Errors that this file says nothing about. -/
class Silent (Q : Err → Prop) : Prop extends Unsaid Q where
  data : Q .externalDataModified
  lamports : Q .externalLamportSpend
  unbalanced : Q .unbalanced

instance : Silent (Fault env o w ix) where
  stake _ := trivial
  panic := trivial
  arith := trivial
  cpi := trivial
  data := trivial
  lamports := trivial
  unbalanced := trivial

section
variable [S : Unsaid Q]

theorem Blames.addU64 {a b : Nat} : Blames (Verif.addU64 a b) Q := by
  intro e he; unfold Verif.addU64 at he; split at he <;> cases he; exact S.arith
theorem Blames.subU64 {a b : Nat} : Blames (Verif.subU64 a b) Q := by
  intro e he; unfold Verif.subU64 at he; split at he <;> cases he; exact S.arith
theorem Blames.mulDivU64 {a b d : Nat} : Blames (Verif.mulDivU64 a b d) Q := by
  intro e he; unfold Verif.mulDivU64 at he; split at he <;> cases he; exact S.arith
theorem Blames.eligibleRewards {a b d : Nat} : Blames (Verif.eligibleRewards a b d) Q := by
  unfold Verif.eligibleRewards; exact .ite (fun _ => .ok) fun _ => .mulDivU64
theorem Blames.rewardsPerToken {a b : Nat} : Blames (Verif.rewardsPerToken a b) Q := by
  unfold Verif.rewardsPerToken; exact .ite (fun _ => .ok) fun _ => .ite (fun _ => .ok) fun _ => .error S.arith
theorem Blames.maxStake {a : Nat} : Blames (Verif.maxStake a) Q := by
  unfold Verif.maxStake; exact .ite (fun _ => .ok) fun _ => .mulDivU64
theorem Blames.syncConfigLamports {l : Nat} {c : Config} : Blames (Verif.syncConfigLamports l c) Q :=
  .bind .subU64 fun _ _ => .bind .rewardsPerToken fun _ _ => .pure
theorem Blames.tokenData {k : Key} : Blames (Verif.tokenData w k) Q := by
  unfold Verif.tokenData; split <;> [exact .ok; exact .error S.cpi]
theorem Blames.mintData {k : Key} : Blames (Verif.mintData w k) Q := by
  unfold Verif.mintData; split <;> [exact .ok; exact .error S.cpi]
theorem Blames.tokenTransfer {s m d a : Key} {b : Bool} {n c : Nat} : Blames (Verif.tokenTransfer ctx w s m d a b n c) Q := by
  unfold Verif.tokenTransfer
  refine .bind .tokenData fun _ _ => .bind .tokenData fun _ _ => .bind .mintData fun _ _ => ?_
  refine .reqBind (fun _ => S.cpi) fun _ => .reqBind (fun _ => S.cpi) fun _ => .reqBind (fun _ => S.cpi) fun _ => ?_
  refine .reqBind (fun _ => S.cpi) fun _ => .reqBind (fun _ => S.cpi) fun _ => .reqBind (fun _ => S.cpi) fun _ => ?_
  exact .reqBind (fun _ => S.cpi) fun _ => .ite (fun _ => .pure) fun _ => .reqBind (fun _ => S.cpi) fun _ => .pure
theorem Blames.tokenBurn {s m a : Key} {n c : Nat} : Blames (Verif.tokenBurn ctx w s m a n c) Q := by
  unfold Verif.tokenBurn
  refine .bind .tokenData fun _ _ => .bind .mintData fun _ _ => ?_
  refine .reqBind (fun _ => S.cpi) fun _ => .reqBind (fun _ => S.cpi) fun _ => .reqBind (fun _ => S.cpi) fun _ => ?_
  refine .reqBind (fun _ => S.cpi) fun _ => .reqBind (fun _ => S.cpi) fun _ => .reqBind (fun _ => S.cpi) fun _ => ?_
  exact .reqBind (fun _ => S.cpi) fun _ => .pure
theorem Blames.systemAllocate {k : Key} {n : Nat} : Blames (Verif.systemAllocate ctx w k n) Q :=
  .reqBind (fun _ => S.cpi) fun _ => .reqBind (fun _ => S.cpi) fun _ => .pure
theorem Blames.systemAssign {k : Key} : Blames (Verif.systemAssign ctx w k) Q := by
  unfold Verif.systemAssign
  exact .ite (fun _ => .pure) fun _ => .reqBind (fun _ => S.cpi) fun _ => .reqBind (fun _ => S.cpi) fun _ => .pure

end

section
variable [S : Silent Q]

theorem Blames.setLamports {k : Key} {n : Nat} : Blames (Verif.setLamports w k n) Q :=
  .reqBind (fun _ => S.lamports) fun _ => .pure
theorem Blames.setData {k : Key} {d : Data} : Blames (Verif.setData w k d) Q :=
  .reqBind (fun _ => S.data) fun _ => .pure
theorem Blames.writeDel {k : Key} {d : Delegation} : Blames (Verif.writeDel w k d) Q := .setData
theorem Blames.payKeeper {keeper : Option Key} {n : Nat} : Blames (Verif.payKeeper w keeper n) Q := by
  unfold Verif.payKeeper
  split
  · exact .bind .addU64 fun _ _ => .setLamports
  · exact .ok
theorem Blames.callOut {view : World} {held passed : List Key} (h : (∃ k ∈ passed, k ∈ held) → Q .accountBorrowFailed) :
    Blames (Verif.callOut view w held passed) Q :=
  .reqBind (fun hn => h (by push Not at hn; exact hn)) fun _ => .req fun _ => S.unbalanced

end

/-! ## Worlds whose accounts hold the same kinds of data -/

/-- Data of the same kind. -/
inductive Like : Data → Data → Prop
  | config {c c'} : Like (.config c) (.config c')
  | validator {v v'} : Like (.validator v) (.validator v')
  | solStaker {s s'} : Like (.solStaker s) (.solStaker s')
  | refl {d} : Like d d

/-- The accounts have the same owners and hold data of the same kinds. -/
def Alike (w w' : World) : Prop := ∀ k, (w' k).owner = (w k).owner ∧ Like (w k).data (w' k).data

theorem Like.trans {a b c : Data} (h1 : Like a b) (h2 : Like b c) : Like a c := by
  cases h1 <;> cases h2 <;> constructor

theorem Alike.refl : Alike w w := fun _ => ⟨rfl, .refl⟩
theorem Alike.trans {u v w : World} (h1 : Alike u v) (h2 : Alike v w) : Alike u w :=
  fun k => ⟨(h2 k).1.trans (h1 k).1, (h1 k).2.trans (h2 k).2⟩

theorem Like.init {C : Content} {a b : Data} (h : Like a b) : C.initialised b ↔ C.initialised a := by
  cases h <;> cases C <;> simp [Content.initialised]
theorem Like.len {a b : Data} (h : Like a b) : b.len = a.len := by cases h <;> rfl
theorem Like.blank {C : Content} {a b : Data} (h : Like a b) : C.blank b ↔ C.blank a := by
  cases h <;> cases C <;> simp [Content.blank, Content.initialised, Data.len, Data.blankToken, Data.blankMint]
theorem Like.setDel {a : Data} {d : Delegation} : Like a (a.setDel d) := by cases a <;> constructor
theorem Like.del {a b : Data} (h : Like a b) : b.del?.isSome = a.del?.isSome := by cases h <;> rfl

theorem Alike.set {k : Key} {x : Account} (h1 : x.owner = (w k).owner) (h2 : Like (w k).data x.data) : Alike w (w.set k x) := by
  intro k'
  by_cases e : k' = k
  · subst e; rw [World.set_same]; exact ⟨h1, h2⟩
  · rw [World.set_other _ _ e]; exact ⟨rfl, .refl⟩

theorem setLamports_alike {k : Key} {n : Nat} (h : setLamports w k n = .ok w') : Alike w w' := by
  simp only [setLamports, bind_ok, require_ok, exists_unit, pure_ok] at h
  obtain ⟨_, rfl⟩ := h
  exact .set rfl .refl
theorem setData_alike {k : Key} {d : Data} (h : setData w k d = .ok w') (hd : Like (w k).data d) : Alike w w' := by
  simp only [setData, bind_ok, require_ok, exists_unit, pure_ok] at h
  obtain ⟨_, rfl⟩ := h
  exact .set rfl hd
theorem writeDel_alike {k : Key} {d : Delegation} (h : writeDel w k d = .ok w') : Alike w w' := setData_alike h .setDel

theorem payKeeper_alike {keeper : Option Key} {n : Nat} (h : payKeeper w keeper n = .ok w') : Alike w w' := by
  unfold payKeeper at h
  split at h
  · simp only [bind_ok] at h
    obtain ⟨_, _, h⟩ := h
    exact setLamports_alike h
  · cases h; exact .refl

theorem Alike.config {k : Key} {c : Config} (A : Alike w w1) (h : (w k).data = .config c) : ∃ c', (w1 k).data = .config c' := by
  have := (A k).2
  rw [h] at this
  generalize (w1 k).data = d at this
  cases this <;> exact ⟨_, rfl⟩
theorem Alike.validator {k : Key} {c : ValidatorStake} (A : Alike w w1) (h : (w k).data = .validator c) :
    ∃ c', (w1 k).data = .validator c' := by
  have := (A k).2
  rw [h] at this
  generalize (w1 k).data = d at this
  cases this <;> exact ⟨_, rfl⟩
theorem Alike.solStaker {k : Key} {c : SolStakerStake} (A : Alike w w1) (h : (w k).data = .solStaker c) :
    ∃ c', (w1 k).data = .solStaker c' := by
  have := (A k).2
  rw [h] at this
  generalize (w1 k).data = d at this
  cases this <;> exact ⟨_, rfl⟩

theorem harvest_alike {ck hk ak va sk : Key} {keeper : Option Key} (h : harvest env w ck hk ak va sk keeper = .ok w') :
    Alike w w' := by
  simp only [harvest, bind_ok, require_ok, exists_unit, unpackConfig_ok] at h
  obtain ⟨c, hc, _, _, _, _, _, _, _, _, _, _, _, _, _, _, _, _, _, w1, h1, _, _, _, _, w2, h2, w3, h3, w4, h4, h5⟩ := h
  have A3 := ((payKeeper_alike h1).trans (setLamports_alike h2)).trans (setLamports_alike h3)
  obtain ⟨c', hc'⟩ := A3.config hc
  exact (A3.trans (setData_alike h4 (by rw [hc']; exact .config))).trans (writeDel_alike h5)

theorem syncEffective_alike {ck sk : Key} {l m : Nat} (h : syncEffective w ck sk l m = .ok w') : Alike w w' := by
  simp only [syncEffective, bind_ok, unpackConfig_ok] at h
  obtain ⟨c, hc, _, _, _, _, _, _, _, _, w1, h1, h2⟩ := h
  exact (setData_alike h1 (by rw [hc]; exact .config)).trans (writeDel_alike h2)

/-! ## Reading accounts -/

/-- The error for data that is not an initialised account of this kind. -/
def Content.Fails (C : Content) (d : Data) (e : Err) : Prop :=
  ¬ C.initialised d ∧ ((C.blank d ∧ e = .uninitializedAccount) ∨ (¬ C.blank d ∧ e = .invalidAccountData))

theorem unpackConfig_fails {k : Key} : Blames (unpackConfig w k) (Content.Fails .config (w k).data) := by
  intro e he
  unfold unpackConfig at he
  split at he
  · cases he
  · rename_i d hn
    have hi : ¬ Content.initialised .config (w k).data := by
      intro h; cases hd : (w k).data <;> rw [hd] at h <;> first | exact h | exact hn _ hd
    refine ⟨hi, ?_⟩
    simp only [Except.error.injEq] at he
    split at he
    · exact .inl ⟨⟨‹_›, hi⟩, he.symm⟩
    · exact .inr ⟨fun h => by simp_all [Content.blank, configLen], he.symm⟩

theorem unpackValidator_fails {k : Key} : Blames (unpackValidator w k) (Content.Fails .validatorStake (w k).data) := by
  intro e he
  unfold unpackValidator at he
  split at he
  · cases he
  · rename_i d hn
    have hi : ¬ Content.initialised .validatorStake (w k).data := by
      intro h; cases hd : (w k).data <;> rw [hd] at h <;> first | exact h | exact hn _ hd
    refine ⟨hi, ?_⟩
    simp only [Except.error.injEq] at he
    split at he
    · exact .inl ⟨⟨‹_›, hi⟩, he.symm⟩
    · exact .inr ⟨fun h => by simp_all [Content.blank, validatorLen], he.symm⟩

theorem unpackSolStaker_fails {k : Key} : Blames (unpackSolStaker w k) (Content.Fails .solStakerStake (w k).data) := by
  intro e he
  unfold unpackSolStaker at he
  split at he
  · cases he
  · rename_i d hn
    have hi : ¬ Content.initialised .solStakerStake (w k).data := by
      intro h; cases hd : (w k).data <;> rw [hd] at h <;> first | exact h | exact hn _ hd
    refine ⟨hi, ?_⟩
    simp only [Except.error.injEq] at he
    split at he
    · exact .inl ⟨⟨‹_›, hi⟩, he.symm⟩
    · exact .inr ⟨fun h => by simp_all [Content.blank, solStakerLen], he.symm⟩

theorem unpackToken_fails {k : Key} : Blames (unpackToken w k) (Content.Fails .tokenAccount (w k).data) := by
  intro e he
  unfold unpackToken at he
  split at he
  · cases he
  · rename_i d hn
    have hi : ¬ Content.initialised .tokenAccount (w k).data := by
      intro h; cases hd : (w k).data <;> rw [hd] at h <;> first | exact h | exact hn _ hd
    refine ⟨hi, ?_⟩
    simp only [Except.error.injEq] at he
    split at he
    · exact .inl ⟨‹_›, he.symm⟩
    · exact .inr ⟨‹_›, he.symm⟩

theorem unpackMint_fails {k : Key} : Blames (unpackMint w k) (Content.Fails .mint (w k).data) := by
  intro e he
  unfold unpackMint at he
  split at he
  · cases he
  · rename_i d hn
    have hi : ¬ Content.initialised .mint (w k).data := by
      intro h; cases hd : (w k).data <;> rw [hd] at h <;> first | exact h | exact hn _ hd
    refine ⟨hi, ?_⟩
    simp only [Except.error.injEq] at he
    split at he
    · exact .inl ⟨‹_›, he.symm⟩
    · exact .inr ⟨‹_›, he.symm⟩

theorem Content.Fails.like {C : Content} {a b : Data} {e : Err} (h : C.Fails b e) (L : Like a b) : C.Fails a e := by
  obtain ⟨h1, h2⟩ := h
  rw [L.init] at h1
  rw [L.blank] at h2
  exact ⟨h1, h2⟩

/-- The account passed for a role is not what the instruction expects there. -/
theorem Content.Fails.fault {C : Content} {i : StakeInstruction} {r : Role} {k : Key} {e : Err}
    (h : C.Fails (w1 k).data e) (A : Alike w w1) (hi : ix.decoded = some i) (hp : ix.passes r k) (hr : i.reads r = [C]) :
    Fault env o w ix e := by
  obtain ⟨h1, ⟨h2, rfl⟩ | ⟨h2, rfl⟩⟩ := h.like (A k).2
  · exact ⟨i, r, k, C, hi, hp, by rw [hr]; exact List.mem_singleton.2 rfl, h2⟩
  · exact .inl ⟨i, r, k, hi, hp, by rw [hr]; simp, by rw [hr]; simpa using ⟨h1, h2⟩⟩

section
variable {i : StakeInstruction} {k : Key} {r : Role}

theorem Blames.config (A : Alike w w1) (hi : ix.decoded = some i) (hp : ix.passes r k) (hr : i.reads r = [.config]) :
    Blames (unpackConfig w1 k) (Fault env o w ix) := fun e he => (unpackConfig_fails e he).fault A hi hp hr
theorem Blames.validator (A : Alike w w1) (hi : ix.decoded = some i) (hp : ix.passes r k) (hr : i.reads r = [.validatorStake]) :
    Blames (unpackValidator w1 k) (Fault env o w ix) := fun e he => (unpackValidator_fails e he).fault A hi hp hr
theorem Blames.solStaker (A : Alike w w1) (hi : ix.decoded = some i) (hp : ix.passes r k) (hr : i.reads r = [.solStakerStake]) :
    Blames (unpackSolStaker w1 k) (Fault env o w ix) := fun e he => (unpackSolStaker_fails e he).fault A hi hp hr
theorem Blames.token (A : Alike w w1) (hi : ix.decoded = some i) (hp : ix.passes r k) (hr : i.reads r = [.tokenAccount]) :
    Blames (unpackToken w1 k) (Fault env o w ix) := fun e he => (unpackToken_fails e he).fault A hi hp hr
theorem Blames.mint (A : Alike w w1) (hi : ix.decoded = some i) (hp : ix.passes r k) (hr : i.reads r = [.mint]) :
    Blames (unpackMint w1 k) (Fault env o w ix) := fun e he => (unpackMint_fails e he).fault A hi hp hr

theorem Blames.vote (hi : ix.decoded = some i) (hp : ix.passes .vote k) :
    Blames (unpackVote w k) (Fault env o w ix) := by
  refine .reqBind (fun h => ⟨i, .vote, k, voteId, hi, hp, rfl, h⟩) fun _ => ?_
  split
  · exact .pure
  · rename_i hn
    refine .error (.inl ⟨i, .vote, k, hi, hp, by simp [StakeInstruction.reads], ?_⟩)
    intro C hC
    simp only [StakeInstruction.reads, List.mem_singleton] at hC
    subst hC
    refine ⟨fun h => ?_, fun h => h⟩
    cases hd : (w k).data <;> rw [hd] at h <;> first | exact h | exact hn _ hd

theorem Blames.readDel (A : Alike w w1) (h : (w k).data.del?.isSome = true) : Blames (Verif.readDel w1 k) Q := by
  intro e he
  rw [← (A k).2.del] at h
  unfold Verif.readDel at he
  split at he
  · cases he
  · rename_i hn; rw [hn] at h; cases h

theorem Blames.harvest {ck hk ak va sk : Key} {keeper : Option Key} {c : Config} (A : Alike w w1) (hc : (w ck).data = .config c)
    (hs : (w sk).data.del?.isSome = true) (hi : ix.decoded = some i) (hp : ix.passes .record hk)
    (hr : i.reads .record = [.rewardsRecord]) :
    Blames (Verif.harvest env w1 ck hk ak va sk keeper) (Fault env o w ix) := by
  unfold Verif.harvest
  refine .bind ?_ fun _ _ => .bind (.readDel A hs) fun _ _ => .reqBind (fun _ => trivial) fun _ => ?_
  · obtain ⟨c', hc'⟩ := A.config hc
    intro e he
    rw [unpackConfig_ok.2 hc'] at he; cases he
  refine .bind .syncConfigLamports fun _ _ => .bind .eligibleRewards fun _ _ => .reqBind (fun _ => trivial) fun _ => ?_
  refine .bind ?_ fun _ _ => .bind .eligibleRewards fun _ _ => .bind .addU64 fun _ _ => .bind .subU64 fun _ _ => ?_
  · intro e he
    unfold unpackHolder at he
    split at he
    · cases he
    · rename_i hn
      cases he
      refine ⟨i, hk, hi, hp, by rw [hr]; exact List.mem_singleton.2 rfl, fun h => ?_⟩
      rw [← (A hk).2.init] at h
      cases hd : (w1 hk).data <;> rw [hd] at h <;> first | exact h | exact hn _ hd
  refine .reqBind (fun _ => trivial) fun _ => .bind .payKeeper fun _ _ => .bind .subU64 fun _ _ => .bind .addU64 fun _ _ => ?_
  exact .bind .setLamports fun _ _ => .bind .setLamports fun _ _ => .bind .setData fun _ _ => .writeDel

theorem Blames.syncEffective [Silent Q] {ck sk : Key} {l m : Nat} {c : Config} (A : Alike w w1) (hc : (w ck).data = .config c)
    (hs : (w sk).data.del?.isSome = true) : Blames (Verif.syncEffective w1 ck sk l m) Q := by
  unfold Verif.syncEffective
  refine .bind ?_ fun _ _ => .bind (.readDel A hs) fun _ _ => .bind .maxStake fun _ _ => .bind .subU64 fun _ _ => ?_
  · obtain ⟨c', hc'⟩ := A.config hc
    intro e he
    rw [unpackConfig_ok.2 hc'] at he; cases he
  exact .bind .addU64 fun _ _ => .bind .setData fun _ _ => .writeDel

end

/-! ## Addresses -/

theorem misplaced_validator (I : Inv env w) {k ck : Key} {v : ValidatorStake} (hO : (w k).owner = progId)
    (hd : (w k).data = .validator v) (h : k ≠ .validatorPda v.del.vote ck) : ¬ belongs k ck := by
  have S := I.shape k hO
  rintro (⟨x, rfl⟩ | ⟨x, rfl⟩)
  · obtain ⟨y, hy, hv, _⟩ := S
    rw [hd] at hy; cases hy
    exact h (by rw [hv])
  · obtain ⟨y, hy, _⟩ := S
    rw [hd] at hy; cases hy

theorem misplaced_solStaker (I : Inv env w) {k ck : Key} {v : SolStakerStake} (hO : (w k).owner = progId)
    (hd : (w k).data = .solStaker v) (h : k ≠ .solStakerPda v.solStake ck) : ¬ belongs k ck := by
  have S := I.shape k hO
  rintro (⟨x, rfl⟩ | ⟨x, rfl⟩)
  · obtain ⟨y, hy, _⟩ := S
    rw [hd] at hy; cases hy
  · obtain ⟨y, hy, hv, _⟩ := S
    rw [hd] at hy; cases hy
    exact h (by rw [hv])

end Verif
