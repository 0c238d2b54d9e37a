import Verif.SpecBuild
import Verif.Lemmas.Client
/-!
# The client's builders
-/

namespace Verif.Client

open Verif

/-- The builder after a series of method calls. -/
def ran (b : Builder) (steps : List Setter) : Builder := steps.foldl Builder.step b

theorem ran_append (b : Builder) (s t : List Setter) : ran b (s ++ t) = ran (ran b s) t := List.foldl_append

theorem ran_accounts (steps : List Setter) (f : Field) : (ran .new steps).accounts f = accountGiven steps f := by
  induction steps using List.reverseRecOn with
  | nil => rfl
  | append_singleton steps s ih =>
    rw [ran_append]
    change ((ran .new steps).step s).accounts f = _
    unfold accountGiven at ih ⊢
    rw [List.reverse_append, List.reverse_singleton, List.singleton_append, List.findSome?_cons]
    cases s with
    | account g k =>
      by_cases h : g = f
      · subst h; simp [Builder.step]
      · simpa [Builder.step, h, Ne.symm h] using ih
    | keeper k =>
      by_cases h : f = .keeperRecipient
      · subst h; simp [Builder.step]
      · simpa [Builder.step, h] using ih
    | arg a v => exact ih
    | remaining ms => exact ih

theorem ran_args (steps : List Setter) (a : Arg) : (ran .new steps).args a = argumentGiven steps a := by
  induction steps using List.reverseRecOn with
  | nil => rfl
  | append_singleton steps s ih =>
    rw [ran_append]
    change ((ran .new steps).step s).args a = _
    unfold argumentGiven at ih ⊢
    rw [List.reverse_append, List.reverse_singleton, List.singleton_append, List.findSome?_cons]
    cases s with
    | arg b v =>
      by_cases h : b = a
      · subst h; simp [Builder.step]
      · simpa [Builder.step, h, Ne.symm h] using ih
    | account g k => exact ih
    | keeper k => exact ih
    | remaining ms => exact ih

theorem ran_remaining (steps : List Setter) : (ran .new steps).remaining = remainingGiven steps := by
  induction steps using List.reverseRecOn with
  | nil => rfl
  | append_singleton steps s ih =>
    rw [ran_append]
    change ((ran .new steps).step s).remaining = _
    unfold remainingGiven at ih ⊢
    rw [List.flatMap_append, ← ih]
    cases s <;> simp [Builder.step]

theorem or_some_eq {o : Option Key} {d k : Key} : some k = o.or (some d) ↔ o.getD d = k := by
  cases o <;> simp [eq_comm]

theorem or_none_eq {o : Option Key} {k : Key} : some k = o.or none ↔ o = some k := by
  cases o <;> simp [eq_comm]

theorem or_none_eq' {o o' : Option Key} : o' = o.or none ↔ o = o' := by
  cases o <;> simp [eq_comm]

/-- The call collected from cells `acc` and `args`, with defaults `dflt`, is the call with these fields. -/
def Collects (kind : Kind) (got : Option Call) (acc : Field → Option Key) (args : (a : Arg) → Option a.Val)
    (dflt : Field → Option Key) : Prop :=
  ∀ c, got = some c ↔
    c.kind = kind ∧ (∀ f ∈ kind.fields, c.account f = (acc f).or (dflt f)) ∧ ∀ a ∈ kind.arguments, c.argument a = args a

/-- No defaults. -/
def noDefault : Field → Option Key := fun _ => none

theorem bind_some_of {α β : Type} {o : Option α} {a : α} {f : α → Option β} {c : β} (h : some a = o) (k : f a = some c) :
    o.bind f = some c := by subst h; exact k

macro "fetch " h:ident : tactic => `(tactic|
  first
  | refine bind_some_of $h ?_
  | refine bind_some_of ($h).1 ?_
  | refine bind_some_of ($h).2.1 ?_
  | refine bind_some_of ($h).2.2.1 ?_
  | refine bind_some_of ($h).2.2.2.1 ?_
  | refine bind_some_of ($h).2.2.2.2.1 ?_
  | refine bind_some_of ($h).2.2.2.2.2 ?_)

macro "collects" : tactic => `(tactic| (
  intro c
  constructor
  · intro h
    simp only [Builder.call, CpiBuilder.call] at h
    repeat (rcases Option.bind_eq_some_iff.1 h with ⟨_, _, h'⟩; clear h; rename' h' => h)
    cases h
    refine ⟨rfl, ?_, ?_⟩
    · simp only [Kind.fields, List.forall_mem_cons, List.not_mem_nil, false_imp_iff, implies_true, and_true,
        Call.account, Field.default, noDefault, or_none_eq, or_some_eq, or_none_eq']
      repeat' apply And.intro
      all_goals first | assumption | trivial
    · simp only [Kind.arguments, List.forall_mem_cons, List.not_mem_nil, false_imp_iff, implies_true, and_true,
        Call.argument]
      try (repeat' apply And.intro)
      all_goals first | trivial | (symm; assumption)
  · rintro ⟨hk, hf, ha⟩
    cases c <;> simp only [Call.kind, reduceCtorEq] at hk
    simp only [Kind.fields, List.forall_mem_cons, List.not_mem_nil, false_imp_iff, implies_true, and_true,
      Call.account, Field.default, noDefault, or_none_eq, or_some_eq, or_none_eq'] at hf
    simp only [Kind.arguments, List.forall_mem_cons, List.not_mem_nil, false_imp_iff, implies_true, and_true,
      Call.argument] at ha
    simp only [Builder.call, CpiBuilder.call, hf, Option.bind_eq_bind, Option.bind_some]
    repeat fetch ha
    rfl))

section
variable (b : Builder) (d : CpiBuilder)

theorem collects_initializeConfig : Collects .initializeConfig (b.call .initializeConfig) b.accounts b.args Field.default := by collects
theorem collects_initializeValidatorStake : Collects .initializeValidatorStake (b.call .initializeValidatorStake) b.accounts b.args Field.default := by collects
theorem collects_initializeSolStakerStake : Collects .initializeSolStakerStake (b.call .initializeSolStakerStake) b.accounts b.args Field.default := by collects
theorem collects_validatorStakeTokens : Collects .validatorStakeTokens (b.call .validatorStakeTokens) b.accounts b.args Field.default := by collects
theorem collects_solStakerStakeTokens : Collects .solStakerStakeTokens (b.call .solStakerStakeTokens) b.accounts b.args Field.default := by collects
theorem collects_unstakeTokens : Collects .unstakeTokens (b.call .unstakeTokens) b.accounts b.args Field.default := by collects
theorem collects_harvestHolderRewards : Collects .harvestHolderRewards (b.call .harvestHolderRewards) b.accounts b.args Field.default := by collects
theorem collects_harvestValidatorRewards : Collects .harvestValidatorRewards (b.call .harvestValidatorRewards) b.accounts b.args Field.default := by collects
theorem collects_harvestSolStakerRewards : Collects .harvestSolStakerRewards (b.call .harvestSolStakerRewards) b.accounts b.args Field.default := by collects
theorem collects_slashValidatorStake : Collects .slashValidatorStake (b.call .slashValidatorStake) b.accounts b.args Field.default := by collects
theorem collects_slashSolStakerStake : Collects .slashSolStakerStake (b.call .slashSolStakerStake) b.accounts b.args Field.default := by collects
theorem collects_setAuthority : Collects .setAuthority (b.call .setAuthority) b.accounts b.args Field.default := by collects
theorem collects_updateConfig : Collects .updateConfig (b.call .updateConfig) b.accounts b.args Field.default := by collects
theorem collects_solStakerMoveTokens : Collects .solStakerMoveTokens (b.call .solStakerMoveTokens) b.accounts b.args Field.default := by collects
theorem collects_validatorOverrideStakedLamports : Collects .validatorOverrideStakedLamports (b.call .validatorOverrideStakedLamports) b.accounts b.args Field.default := by collects
theorem collects_validatorSyncAuthority : Collects .validatorSyncAuthority (b.call .validatorSyncAuthority) b.accounts b.args Field.default := by collects
theorem collects_cpi_initializeConfig : Collects .initializeConfig (d.call .initializeConfig) d.accounts d.args noDefault := by collects
theorem collects_cpi_initializeValidatorStake : Collects .initializeValidatorStake (d.call .initializeValidatorStake) d.accounts d.args noDefault := by collects
theorem collects_cpi_initializeSolStakerStake : Collects .initializeSolStakerStake (d.call .initializeSolStakerStake) d.accounts d.args noDefault := by collects
theorem collects_cpi_validatorStakeTokens : Collects .validatorStakeTokens (d.call .validatorStakeTokens) d.accounts d.args noDefault := by collects
theorem collects_cpi_solStakerStakeTokens : Collects .solStakerStakeTokens (d.call .solStakerStakeTokens) d.accounts d.args noDefault := by collects
theorem collects_cpi_unstakeTokens : Collects .unstakeTokens (d.call .unstakeTokens) d.accounts d.args noDefault := by collects
theorem collects_cpi_harvestHolderRewards : Collects .harvestHolderRewards (d.call .harvestHolderRewards) d.accounts d.args noDefault := by collects
theorem collects_cpi_harvestValidatorRewards : Collects .harvestValidatorRewards (d.call .harvestValidatorRewards) d.accounts d.args noDefault := by collects
theorem collects_cpi_harvestSolStakerRewards : Collects .harvestSolStakerRewards (d.call .harvestSolStakerRewards) d.accounts d.args noDefault := by collects
theorem collects_cpi_slashValidatorStake : Collects .slashValidatorStake (d.call .slashValidatorStake) d.accounts d.args noDefault := by collects
theorem collects_cpi_slashSolStakerStake : Collects .slashSolStakerStake (d.call .slashSolStakerStake) d.accounts d.args noDefault := by collects
theorem collects_cpi_setAuthority : Collects .setAuthority (d.call .setAuthority) d.accounts d.args noDefault := by collects
theorem collects_cpi_updateConfig : Collects .updateConfig (d.call .updateConfig) d.accounts d.args noDefault := by collects
theorem collects_cpi_solStakerMoveTokens : Collects .solStakerMoveTokens (d.call .solStakerMoveTokens) d.accounts d.args noDefault := by collects
theorem collects_cpi_validatorOverrideStakedLamports : Collects .validatorOverrideStakedLamports (d.call .validatorOverrideStakedLamports) d.accounts d.args noDefault := by collects
theorem collects_cpi_validatorSyncAuthority : Collects .validatorSyncAuthority (d.call .validatorSyncAuthority) d.accounts d.args noDefault := by collects

theorem collects_builder (kind : Kind) : Collects kind (b.call kind) b.accounts b.args Field.default := by
  cases kind
  · exact collects_initializeConfig b
  · exact collects_initializeValidatorStake b
  · exact collects_initializeSolStakerStake b
  · exact collects_validatorStakeTokens b
  · exact collects_solStakerStakeTokens b
  · exact collects_unstakeTokens b
  · exact collects_harvestHolderRewards b
  · exact collects_harvestValidatorRewards b
  · exact collects_harvestSolStakerRewards b
  · exact collects_slashValidatorStake b
  · exact collects_slashSolStakerStake b
  · exact collects_setAuthority b
  · exact collects_updateConfig b
  · exact collects_solStakerMoveTokens b
  · exact collects_validatorOverrideStakedLamports b
  · exact collects_validatorSyncAuthority b

theorem collects_cpi (kind : Kind) : Collects kind (d.call kind) d.accounts d.args noDefault := by
  cases kind
  · exact collects_cpi_initializeConfig d
  · exact collects_cpi_initializeValidatorStake d
  · exact collects_cpi_initializeSolStakerStake d
  · exact collects_cpi_validatorStakeTokens d
  · exact collects_cpi_solStakerStakeTokens d
  · exact collects_cpi_unstakeTokens d
  · exact collects_cpi_harvestHolderRewards d
  · exact collects_cpi_harvestValidatorRewards d
  · exact collects_cpi_harvestSolStakerRewards d
  · exact collects_cpi_slashValidatorStake d
  · exact collects_cpi_slashSolStakerStake d
  · exact collects_cpi_setAuthority d
  · exact collects_cpi_updateConfig d
  · exact collects_cpi_solStakerMoveTokens d
  · exact collects_cpi_validatorOverrideStakedLamports d
  · exact collects_cpi_validatorSyncAuthority d

end

/-! ## Which fields must be given -/

theorem bind_isSome_of {α β : Type} {o : Option α} {f : α → Option β} (h : o.isSome = true)
    (k : ∀ a, (f a).isSome = true) : (o.bind f).isSome = true := by
  cases o with
  | none => cases h
  | some a => exact k a

/-- A call gives every account of its instruction but perhaps the keeper. -/
theorem account_isSome (c : Call) : ∀ f ∈ c.kind.fields, f ≠ .keeperRecipient → (c.account f).isSome = true := by
  cases c <;>
    (simp only [Call.kind, Kind.fields, List.forall_mem_cons, List.not_mem_nil, false_imp_iff, implies_true, and_true,
       ne_eq, not_true_eq_false]
     repeat' apply And.intro
     all_goals first | exact fun _ => rfl | trivial)

theorem argument_isSome (c : Call) : ∀ a ∈ c.kind.arguments, (c.argument a).isSome = true := by
  cases c <;>
    (simp only [Call.kind, Kind.arguments, List.forall_mem_cons, List.not_mem_nil, false_imp_iff, implies_true, and_true]
     try (repeat' apply And.intro)
     all_goals first | rfl | trivial)

theorem builder_isSome (b : Builder) (kind : Kind)
    (hf : ∀ f ∈ kind.fields, f.required → (b.accounts f).isSome = true)
    (ha : ∀ a ∈ kind.arguments, (b.args a).isSome = true) : (b.call kind).isSome = true := by
  cases kind <;>
    (simp only [Kind.fields, List.forall_mem_cons, List.not_mem_nil, false_imp_iff, implies_true, and_true, Field.required,
       Field.default, ne_eq, reduceCtorEq, not_false_eq_true, forall_const, not_true_eq_false] at hf
     simp only [Kind.arguments, List.forall_mem_cons, List.not_mem_nil, false_imp_iff, implies_true, and_true] at ha
     simp only [Builder.call]
     repeat refine bind_isSome_of (by simp only [hf, ha]) fun _ => ?_
     rfl)

theorem cpi_isSome (b : CpiBuilder) (kind : Kind)
    (hf : ∀ f ∈ kind.fields, f ≠ .keeperRecipient → (b.accounts f).isSome = true)
    (ha : ∀ a ∈ kind.arguments, (b.args a).isSome = true) : (b.call kind).isSome = true := by
  cases kind <;>
    (simp only [Kind.fields, List.forall_mem_cons, List.not_mem_nil, false_imp_iff, implies_true, and_true,
       ne_eq, reduceCtorEq, not_false_eq_true, forall_const, not_true_eq_false] at hf
     simp only [Kind.arguments, List.forall_mem_cons, List.not_mem_nil, false_imp_iff, implies_true, and_true] at ha
     simp only [CpiBuilder.call]
     repeat refine bind_isSome_of (by simp only [hf, ha]) fun _ => ?_
     rfl)

/-- A builder fails exactly when a field without default is missing. -/
theorem builder_none {b : Builder} {kind : Kind} :
    b.call kind = none ↔
      (∃ f ∈ kind.fields, f.required ∧ b.accounts f = none) ∨ ∃ a ∈ kind.arguments, b.args a = none := by
  constructor
  · intro h
    by_contra hc
    push Not at hc
    have := builder_isSome b kind (fun f hf hr => Option.isSome_iff_ne_none.2 (hc.1 f hf hr))
      (fun a ha => Option.isSome_iff_ne_none.2 (hc.2 a ha))
    rw [h] at this
    cases this
  · intro h
    rw [Option.eq_none_iff_forall_ne_some]
    intro c hc
    obtain ⟨rfl, hf, ha⟩ := (collects_builder b kind c).1 hc
    rcases h with ⟨f, hm, hr, hn⟩ | ⟨a, hm, hn⟩
    · have := account_isSome c _ hm hr.1
      rw [hf f hm, hn, hr.2] at this
      cases this
    · have := argument_isSome c _ hm
      rw [ha a hm, hn] at this
      cases this

theorem cpi_none {b : CpiBuilder} {kind : Kind} :
    b.call kind = none ↔
      (∃ f ∈ kind.fields, f ≠ .keeperRecipient ∧ b.accounts f = none) ∨ ∃ a ∈ kind.arguments, b.args a = none := by
  constructor
  · intro h
    by_contra hc
    push Not at hc
    have := cpi_isSome b kind (fun f hf hr => Option.isSome_iff_ne_none.2 (hc.1 f hf hr))
      (fun a ha => Option.isSome_iff_ne_none.2 (hc.2 a ha))
    rw [h] at this
    cases this
  · intro h
    rw [Option.eq_none_iff_forall_ne_some]
    intro c hc
    obtain ⟨rfl, hf, ha⟩ := (collects_cpi b kind c).1 hc
    rcases h with ⟨f, hm, hr, hn⟩ | ⟨a, hm, hn⟩
    · have := account_isSome c _ hm hr
      rw [hf f hm, hn] at this
      cases this
    · have := argument_isSome c _ hm
      rw [ha a hm, hn] at this
      cases this

/-! ## Invocations by other programs -/

theorem cpi_metas (c : Call) : c.cpiMetas = c.metas := by cases c <;> rfl

/-- The cells of a CPI builder after a series of method calls. -/
def cpiRan (program : Key) (steps : List CpiSetter) : CpiBuilder := steps.foldl CpiBuilder.step (.new program)

theorem cpi_accounts (program : Key) (steps : List CpiSetter) :
    (cpiRan program steps).accounts = (ran .new (steps.map (·.documented))).accounts ∧
    (cpiRan program steps).args = (ran .new (steps.map (·.documented))).args ∧
    ((cpiRan program steps).remaining.map fun r => ({ key := r.1, signer := r.2.2, writable := r.2.1 } : Meta)) =
      (ran .new (steps.map (·.documented))).remaining ∧
    (cpiRan program steps).program = program := by
  induction steps using List.reverseRecOn with
  | nil => exact ⟨rfl, rfl, rfl, rfl⟩
  | append_singleton steps s ih =>
    obtain ⟨h1, h2, h3, h4⟩ := ih
    have e : cpiRan program (steps ++ [s]) = (cpiRan program steps).step s := by simp [cpiRan]
    have e' : ran .new ((steps ++ [s]).map (·.documented)) = (ran .new (steps.map (·.documented))).step s.documented := by
      simp [ran]
    rw [e, e']
    cases s <;> simp [CpiBuilder.step, Builder.step, CpiSetter.documented, h1, h2, h3, h4]

/-- Accounts after those an instruction names are not looked at. -/
theorem call_dispatch_extra {env : Env} {o : Oracle} {w : World} {c : Call} (h : c.Typed) {ctx : Ctx} {ks : List Key}
    (hc : ctx.accts = c.metas.map (·.key) ++ ks) : dispatch env o ctx w c.meaning = c.run env o ctx w := by
  unfold dispatch
  rw [hc]
  cases c with
  | harvestSolStakerRewards a =>
    obtain ⟨a0, a1, a2, a3, a4, a5, a6, a7, a8, a9, a10, keeper⟩ := a
    cases keeper with
    | none => rfl
    | some k =>
      have : k ≠ progId := by simpa [Call.Typed] using h
      simp only [Call.meaning, Call.metas, Call.run, List.map_cons, List.map_nil, reads, writes, if_neg this, List.cons_append]
  | _ => rfl

end Verif.Client
