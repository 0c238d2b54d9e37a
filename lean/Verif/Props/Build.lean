import Verif.Lemmas.Build
import Verif.Props.Client
/-!
# The client's builders (C80-C82)
-/

namespace Verif.Props

open Verif Verif.Client Verif.Witness

variable {env : Env} {o : Oracle} {w : World} {c : Call} {payer program : Key} {kind : Kind} {r : Request} {v : Invocation}
  {steps : List Setter} {csteps : List CpiSetter} {seeds : List (List (List UInt8))}

/-! ## Builders -/

/-- **C80.** Whatever methods are called on a builder and in whatever order, `instruction()` returns exactly the request of the
direct constructor for the accounts and arguments last given, with the documented defaults for accounts never given, followed by
all remaining accounts in the order they were added. -/
theorem C80_builder :
    (steps.foldl Builder.step .new).instruction kind = some r ↔
      ∃ c : Call, c.kind = kind ∧ (∀ f ∈ kind.fields, c.account f = (accountGiven steps f).or f.default) ∧
        (∀ a ∈ kind.arguments, c.argument a = argumentGiven steps a) ∧
        r = { c.request with metas := c.request.metas ++ remainingGiven steps } := by
  change ((ran .new steps).call kind).bind _ = some r ↔ _
  simp only [Option.bind_eq_some_iff, collects_builder (ran .new steps) kind _, ran_accounts, ran_args]
  constructor
  · rintro ⟨c, ⟨h1, h2, h3⟩, h⟩
    exact ⟨c, h1, h2, h3, by rw [← ran_remaining]; exact (Option.some.inj h).symm⟩
  · rintro ⟨c, h1, h2, h3, rfl⟩
    exact ⟨c, ⟨h1, h2, h3⟩, by rw [← ran_remaining]; rfl⟩

/-- **C80.** `instruction()` panics exactly when an argument, or an account that is neither the keeper nor has a default, has
never been given. -/
theorem C80_builder_panics :
    (steps.foldl Builder.step .new).instruction kind = none ↔
      (∃ f ∈ kind.fields, f.required ∧ accountGiven steps f = none) ∨
        ∃ a ∈ kind.arguments, argumentGiven steps a = none := by
  change ((ran .new steps).call kind).bind _ = none ↔ _
  simp only [Option.bind_eq_none_iff]
  have : (∀ a, (ran .new steps).call kind = some a →
      (pure { program := progId, metas := a.metas ++ (ran .new steps).remaining, data := a.data } : Option Request) = none) ↔
      (ran .new steps).call kind = none := by
    constructor
    · intro h
      rw [Option.eq_none_iff_forall_ne_some]
      intro a ha
      cases h a ha
    · intro h a ha
      rw [h] at ha
      cases ha
  refine this.trans ?_
  simp only [builder_none, ran_accounts, ran_args]

/-- **C80.** Sent in a transaction, the request runs the handler of the instruction on the accounts as they were given by name;
remaining accounts are not looked at. -/
theorem C80_builder_runs (h : (steps.foldl Builder.step .new).instruction kind = some r) :
    ∃ c : Call, c.kind = kind ∧ (∀ f ∈ kind.fields, c.account f = (accountGiven steps f).or f.default) ∧
      (∀ a ∈ kind.arguments, c.argument a = argumentGiven steps a) ∧
      (c.Typed → processInstruction env o w (r.ix payer) = c.run env o (r.ix payer).ctx w) := by
  obtain ⟨c, h1, h2, h3, rfl⟩ := C80_builder.1 h
  refine ⟨c, h1, h2, h3, fun hT => ?_⟩
  have hd : StakeInstruction.unpack
      (Request.ix { c.request with metas := c.request.metas ++ remainingGiven steps } payer).data = .ok c.meaning :=
    call_unpack hT
  simp only [processInstruction, hd]
  exact call_dispatch_extra hT (ks := (remainingGiven steps).map (·.key)) (by simp [Request.ix, Call.request])

/-- The moves of the witness history, set out of order, with the amount given twice and one more account. -/
def moveSteps : List Setter :=
  [.arg .amount (7 : Nat), .account .destinationSolStakerStake sol2, .account .config cfg, .remaining [reads keeper],
    .account .solStakerAuthority staker, .account .vaultHolderRewards holder, .account .sourceSolStakerStake sol1,
    .arg .amount (100 : Nat)]

example : (moveSteps.foldl Builder.step .new).instruction .solStakerMoveTokens =
    some { move100.request with metas := move100.request.metas ++ [reads keeper] } := rfl
example : ((moveSteps.take 6).foldl Builder.step .new).instruction .solStakerMoveTokens = none :=
  C80_builder_panics.2 (.inl ⟨.sourceSolStakerStake, by decide, by simp [Field.required, Field.default], rfl⟩)
example : processInstruction env o w
    (Request.ix { move100.request with metas := move100.request.metas ++ [reads keeper] } payer) =
      move100.run env o
        (Request.ix { move100.request with metas := move100.request.metas ++ [reads keeper] } payer).ctx w := by
  obtain ⟨c, h1, h2, h3, h4⟩ := C80_builder_runs (env := env) (o := o) (w := w) (payer := payer) (steps := moveSteps)
    (kind := .solStakerMoveTokens) rfl
  have : c = move100 := by
    cases c <;> simp [Call.kind] at h1
    rename_i a n
    obtain ⟨a1, a2, a3, a4, a5⟩ := a
    have e1 := h2 .config (by decide)
    have e2 := h2 .vaultHolderRewards (by decide)
    have e3 := h2 .solStakerAuthority (by decide)
    have e4 := h2 .sourceSolStakerStake (by decide)
    have e5 := h2 .destinationSolStakerStake (by decide)
    have e6 := h3 .amount (by decide)
    cases e1; cases e2; cases e3; cases e4; cases e5; cases e6
    rfl
  subst this
  exact h4 move100_typed

/-! ## Invocation by another program -/

theorem cpi_invoke_iff :
    (csteps.foldl CpiBuilder.step (.new program)).invoke kind seeds = some v ↔
      ∃ c : Call, c.kind = kind ∧ (∀ f ∈ kind.fields, c.account f = accountGiven (csteps.map (·.documented)) f) ∧
        (∀ a ∈ kind.arguments, c.argument a = argumentGiven (csteps.map (·.documented)) a) ∧
        v = { instruction :=
                { c.request with
                  metas := c.request.metas ++ (remainingGiven (csteps.map (·.documented))).map Meta.swapped }
              infos := program :: c.cpiInfos ++ (remainingGiven (csteps.map (·.documented))).map (·.key)
              seeds := seeds } := by
  obtain ⟨e1, e2, e3, e4⟩ := cpi_accounts program csteps
  change ((cpiRan program csteps).call kind).bind _ = some v ↔ _
  simp only [Option.bind_eq_some_iff, collects_cpi (cpiRan program csteps) kind _, e1, e2, ran_accounts, ran_args]
  have e5 := ran_remaining (csteps.map (·.documented))
  rw [← e3] at e5
  have key : ∀ c : Call, c.invoke (cpiRan program csteps).program seeds (cpiRan program csteps).remaining =
      { instruction :=
          { c.request with
            metas := c.request.metas ++ (remainingGiven (csteps.map (·.documented))).map Meta.swapped }
        infos := program :: c.cpiInfos ++ (remainingGiven (csteps.map (·.documented))).map (·.key)
        seeds := seeds } := by
    intro c
    rw [← e5, e4]
    simp only [Call.invoke, cpi_metas, Call.request, List.map_map, Function.comp_def, Meta.swapped]
  constructor
  · rintro ⟨c, ⟨h1, h2, h3⟩, h⟩
    exact ⟨c, h1, fun f hf => by rw [h2 f hf]; simp [noDefault], h3, by rw [← key]; exact (Option.some.inj h).symm⟩
  · rintro ⟨c, h1, h2, h3, rfl⟩
    exact ⟨c, ⟨h1, fun f hf => by rw [h2 f hf]; simp [noDefault], h3⟩, congrArg some (key c)⟩

/-- **C81.** The instruction that `invoke_signed` of a CPI builder issues is that of the direct constructor for the accounts and
arguments last given (accounts have no defaults here), followed by the remaining accounts, with the two flags of each exchanged
(see C82). -/
theorem C81_cpi_instruction :
    ((csteps.foldl CpiBuilder.step (.new program)).invoke kind seeds).map (·.instruction) = some r ↔
      ∃ c : Call, c.kind = kind ∧ (∀ f ∈ kind.fields, c.account f = accountGiven (csteps.map (·.documented)) f) ∧
        (∀ a ∈ kind.arguments, c.argument a = argumentGiven (csteps.map (·.documented)) a) ∧
        r = { c.request with
              metas := c.request.metas ++ (remainingGiven (csteps.map (·.documented))).map Meta.swapped } := by
  rw [Option.map_eq_some_iff]
  constructor
  · rintro ⟨v, hv, rfl⟩
    obtain ⟨c, h1, h2, h3, rfl⟩ := cpi_invoke_iff.1 hv
    exact ⟨c, h1, h2, h3, rfl⟩
  · rintro ⟨c, h1, h2, h3, rfl⟩
    exact ⟨_, cpi_invoke_iff.2 ⟨c, h1, h2, h3, rfl⟩, rfl⟩

/-- **C81.** `invoke_signed` panics exactly when an argument or an account other than the keeper has never been given. -/
theorem C81_cpi_panics :
    (csteps.foldl CpiBuilder.step (.new program)).invoke kind seeds = none ↔
      (∃ f ∈ kind.fields, f ≠ .keeperRecipient ∧ accountGiven (csteps.map (·.documented)) f = none) ∨
        ∃ a ∈ kind.arguments, argumentGiven (csteps.map (·.documented)) a = none := by
  obtain ⟨e1, e2, -, -⟩ := cpi_accounts program csteps
  change ((cpiRan program csteps).call kind).bind _ = none ↔ _
  have : (((cpiRan program csteps).call kind).bind fun c =>
      (pure (c.invoke (cpiRan program csteps).program seeds (cpiRan program csteps).remaining) : Option Invocation)) = none ↔
      (cpiRan program csteps).call kind = none := by
    cases (cpiRan program csteps).call kind <;> simp
  refine this.trans ?_
  simp only [cpi_none, e1, e2, ran_accounts, ran_args]

/-- **C81.** The seeds are passed on. When the builder is made with the stake program's own account, the program and every
account that the instruction names are handed over, and no other accounts. -/
theorem C81_cpi_accounts (h : (csteps.foldl CpiBuilder.step (.new progId)).invoke kind seeds = some v) :
    v.seeds = seeds ∧ ∀ k, k ∈ v.infos ↔ k = progId ∨ k ∈ v.instruction.metas.map (·.key) := by
  obtain ⟨c, -, -, -, rfl⟩ := cpi_invoke_iff.1 h
  refine ⟨rfl, fun k => ?_⟩
  have hk : k ∈ progId :: c.cpiInfos ↔ k = progId ∨ k ∈ c.metas.map (·.key) := by
    cases c with
    | harvestSolStakerRewards a =>
      obtain ⟨a0, a1, a2, a3, a4, a5, a6, a7, a8, a9, a10, keeper⟩ := a
      cases keeper <;> simp [Call.cpiInfos, Call.metas, reads, writes]
      tauto
    | initializeConfig => simp [Call.cpiInfos, Call.metas, reads, writes]
    | _ => simp [Call.cpiInfos, Call.metas, reads, writes, signs, signsWrites]
  simp only [List.cons_append, List.mem_cons, List.mem_append, Call.request, List.map_append, List.map_map] at hk ⊢
  have e : (remainingGiven (csteps.map (·.documented))).map ((·.key) ∘ Meta.swapped) =
      (remainingGiven (csteps.map (·.documented))).map (·.key) := by simp [Function.comp_def, Meta.swapped]
  rw [e, ← or_assoc, hk, or_assoc]

/-- **C81.** Without remaining accounts the runtime lets the invocation through exactly when the account that must consent has
signed for the calling program (or is one of its own derived addresses, with its seeds given), and the accounts that the
instruction flags writable are writable for the caller. -/
theorem C81_cpi_allowed {caller : Ctx} {derived : List (List UInt8) → Option Key}
    (h : (csteps.foldl CpiBuilder.step (.new progId)).invoke kind seeds = some v)
    (hr : remainingGiven (csteps.map (·.documented)) = []) :
    ∃ c : Call, c.kind = kind ∧ v.instruction = c.request ∧
      (v.allowed caller derived ↔
        (∀ k ∈ c.signers, caller.signer k = true ∨ ∃ s ∈ seeds, derived s = some k) ∧
          ∀ m ∈ c.request.metas, m.writable = true → caller.writable m.key = true) := by
  obtain ⟨hs, hi⟩ := C81_cpi_accounts h
  obtain ⟨c, h1, -, -, rfl⟩ := cpi_invoke_iff.1 h
  have he : ({ c.request with
      metas := c.request.metas ++ (remainingGiven (csteps.map (·.documented))).map Meta.swapped } : Request) = c.request := by
    simp [hr]
  refine ⟨c, h1, he, ?_⟩
  simp only [hr, List.map_nil, List.append_nil] at hi
  simp only [Invocation.allowed, hr, List.map_nil, List.append_nil]
  have hm : (∀ m ∈ c.request.metas, m.signer = true → caller.signer m.key = true ∨ ∃ s ∈ seeds, derived s = some m.key) ↔
      ∀ k ∈ c.signers, caller.signer k = true ∨ ∃ s ∈ seeds, derived s = some k := by
    cases c with
    | harvestSolStakerRewards a =>
      obtain ⟨a0, a1, a2, a3, a4, a5, a6, a7, a8, a9, a10, keeper⟩ := a
      cases keeper <;> simp [Call.request, Call.metas, Call.signers, reads, writes]
    | _ => simp [Call.request, Call.metas, Call.signers, reads, writes, signs, signsWrites]
  rw [← hm]
  constructor
  · rintro ⟨-, H⟩
    exact ⟨fun m hm => (H m hm).2.1, fun m hm => (H m hm).2.2⟩
  · rintro ⟨H1, H2⟩
    exact ⟨(hi _).2 (.inl rfl), fun m hm => ⟨(hi _).2 (.inr (List.mem_map_of_mem hm)), H1 m hm, H2 m hm⟩⟩

/-- **C81.** The stake program then runs the handler of the instruction on the accounts as they were given by name. -/
theorem C81_cpi_runs (h : (csteps.foldl CpiBuilder.step (.new program)).invoke kind seeds = some v) :
    ∃ c : Call, c.kind = kind ∧ (∀ f ∈ kind.fields, c.account f = accountGiven (csteps.map (·.documented)) f) ∧
      (∀ a ∈ kind.arguments, c.argument a = argumentGiven (csteps.map (·.documented)) a) ∧
      (c.Typed → processInstruction env o w v.ix = c.run env o v.ix.ctx w) := by
  obtain ⟨c, h1, h2, h3, rfl⟩ := cpi_invoke_iff.1 h
  refine ⟨c, h1, h2, h3, fun hT => ?_⟩
  have hd : StakeInstruction.unpack c.request.data = .ok c.meaning := call_unpack hT
  simp only [processInstruction, Invocation.ix, hd]
  exact call_dispatch_extra hT (ks := ((remainingGiven (csteps.map (·.documented))).map Meta.swapped).map (·.key))
    (by simp [Call.request])

/-- Moving tokens, invoked by a program whose derived address is the staker. -/
def moveCpi : List CpiSetter :=
  [.account .config cfg, .account .vaultHolderRewards holder, .account .solStakerAuthority staker,
    .account .sourceSolStakerStake sol1, .account .destinationSolStakerStake sol2, .arg .amount (100 : Nat)]

def moveInvocation : Invocation where
  instruction := move100.request
  infos := [progId, cfg, holder, staker, sol1, sol2]
  seeds := [[[1]]]

theorem moveCpi_invoke : (moveCpi.foldl CpiBuilder.step (.new progId)).invoke .solStakerMoveTokens [[[1]]] =
    some moveInvocation := rfl

example : ((moveCpi.drop 1).foldl CpiBuilder.step (.new progId)).invoke .solStakerMoveTokens [] = none :=
  C81_cpi_panics.2 (.inl ⟨.config, by decide, by decide, rfl⟩)
example : moveInvocation.allowed { accts := [], signer := fun _ => false, writable := fun _ => true }
    (fun s => if s = [[1]] then some staker else none) := by
  obtain ⟨c, h1, h2, h⟩ := C81_cpi_allowed (caller := { accts := [], signer := fun _ => false, writable := fun _ => true })
    (derived := fun s => if s = [[1]] then some staker else none) moveCpi_invoke rfl
  rw [h]
  refine ⟨?_, fun _ _ _ => rfl⟩
  have : c.signers = [staker] := by
    cases c <;> simp [Call.kind] at h1
    rename_i a n
    have := congrArg (fun r => r.metas[2]?) h2
    simp [moveInvocation, Call.request, move100, Call.metas] at this
    simp [Call.signers, signs] at *
    exact this.symm
  simp [this]

/-! ## The flags of remaining accounts -/

/-- **C82.** `add_remaining_account(account, is_writable, is_signer)` of a CPI builder does the opposite of what it says: the
account is passed as a signer if it was declared writable, and as writable if it was declared a signer. The instruction is as
documented exactly when every remaining account has been declared both or neither. -/
theorem C82_cpi_flags (h : ((csteps.foldl CpiBuilder.step (.new program)).invoke kind seeds).map (·.instruction) = some r) :
    (∃ c : Call, c.kind = kind ∧
      r = { c.request with metas := c.request.metas ++ remainingGiven (csteps.map (·.documented)) }) ↔
    ∀ m ∈ remainingGiven (csteps.map (·.documented)), m.signer = m.writable := by
  obtain ⟨c, h1, -, -, rfl⟩ := C81_cpi_instruction.1 h
  generalize remainingGiven (csteps.map (·.documented)) = rs
  have flag : ∀ m : Meta, m.swapped = m ↔ m.signer = m.writable := by
    intro m
    obtain ⟨k, s, t⟩ := m
    simp only [Meta.swapped, Meta.mk.injEq, true_and]
    constructor
    · rintro ⟨-, h⟩; exact h
    · rintro rfl; exact ⟨rfl, rfl⟩
  have len : ∀ c' : Call, c'.kind = c.kind → c'.metas.length = c.metas.length := by
    intro c' h
    cases c <;> cases c' <;> first | rfl | cases h
  constructor
  · rintro ⟨c', h2, e⟩
    have e := congrArg Request.metas e
    have := List.append_inj_right e (len c' (h2.trans h1.symm)).symm
    intro m hm
    have := (List.map_eq_map_iff (f := Meta.swapped) (g := id)).1 (by simpa using this) m hm
    exact (flag m).1 this
  · intro H
    refine ⟨c, h1, ?_⟩
    have : rs.map Meta.swapped = rs.map id := List.map_congr_left fun m hm => (flag m).2 (H m hm)
    rw [this, List.map_id]

/-- **C82.** So an invocation is refused by the runtime if an account that did not sign for the caller is added as writable only,
although every program may pass on an account that is writable for it. -/
theorem C82_cpi_refused {caller : Ctx} {derived : List (List UInt8) → Option Key} {k : Key}
    (h : (csteps.foldl CpiBuilder.step (.new program)).invoke kind [] = some v)
    (hk : .remainingAccount k true false ∈ csteps) (hs : caller.signer k = false) : ¬ v.allowed caller derived := by
  obtain ⟨c, -, -, -, rfl⟩ := cpi_invoke_iff.1 h
  rintro ⟨-, H⟩
  have hm : ({ key := k, signer := false, writable := true } : Meta) ∈ remainingGiven (csteps.map (·.documented)) := by
    simp only [remainingGiven, List.mem_flatMap, List.mem_map]
    exact ⟨_, ⟨_, hk, rfl⟩, by simp [CpiSetter.documented]⟩
  have := (H _ (List.mem_append_right _ (List.mem_map_of_mem (f := Meta.swapped) hm))).2.1 rfl
  simp [Meta.swapped, hs] at this

/-- The same invocation with the keeper's account added as writable. -/
def moveCpiKeeper : List CpiSetter := moveCpi ++ [.remainingAccount keeper true false]

def moveKeeper : Request :=
  { move100.request with metas := move100.metas ++ [{ key := keeper, signer := true, writable := false }] }

theorem moveCpiKeeper_invoke : (moveCpiKeeper.foldl CpiBuilder.step (.new progId)).invoke .solStakerMoveTokens [] =
    some { instruction := moveKeeper, infos := [progId, cfg, holder, staker, sol1, sol2, keeper], seeds := [] } := rfl

example (derived : List (List UInt8) → Option Key) :
    ¬ Invocation.allowed { instruction := moveKeeper, infos := [progId, cfg, holder, staker, sol1, sol2, keeper], seeds := [] }
      { accts := [], signer := fun k => k = staker, writable := fun _ => true } derived :=
  C82_cpi_refused (k := keeper) moveCpiKeeper_invoke (List.mem_append_right _ (.head _)) (by decide)
example : ¬ ∃ c : Call, c.kind = .solStakerMoveTokens ∧
    moveKeeper = { c.request with metas := c.request.metas ++ [{ key := keeper, signer := false, writable := true }] } :=
  fun h => absurd ((C82_cpi_flags (congrArg (Option.map (·.instruction)) moveCpiKeeper_invoke)).1 h) (by decide)

end Verif.Props
