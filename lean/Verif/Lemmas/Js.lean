import Verif.SpecJs
import Verif.Lemmas.Build
import Verif.Props.Client
/-!
# Requests of the JavaScript client
-/

namespace Verif.Client.Js

open Verif Verif.Client Verif.Props

theorem encodeInt_nat {n m : Nat} (h : m < 256 ^ n) : encodeInt n (m : Int) = some (leBytes n m) := by
  unfold encodeInt
  rw [if_pos ⟨by omega, by exact_mod_cast h⟩]
  rfl

theorem encodeInt_isSome {n : Nat} {v : Int} : (encodeInt n v).isSome = true ↔ 0 ≤ v ∧ v < 256 ^ n := by
  unfold encodeInt
  split_ifs with h <;> simp [h]

theorem fixSize_exact {b : List UInt8} {n : Nat} (h : b.length = n) : fixSize n b = b := by
  subst h; simp [fixSize]

/-! ## Accounts -/

section
variable {i : Input} {c : Call} {w : Bool} {f : Field} {k d : Key}
  (hf : ∀ f ∈ c.kind.fields, c.account f = ((i.accounts f).map Value.key).or f.default)
  (hs : ∀ f ∈ c.kind.fields, ∀ v, i.accounts f = some v → (v.signs ↔ f ∈ c.kind.signing))
include hf hs

theorem meta_plain (hm : f ∈ c.kind.fields) (hk : c.account f = some k) (hd : f.default = none) (hn : f ∉ c.kind.signing) :
    accountMeta w (i.accounts f) = ⟨k, false, w⟩ := by
  have h1 := hf f hm
  have h2 := hs f hm
  rw [hk, hd] at h1
  cases hv : i.accounts f with
  | none => rw [hv] at h1; simp at h1
  | some x =>
    rw [hv] at h1
    cases x with
    | address a => simp [Value.key] at h1; subst h1; rfl
    | signer a => exact absurd ((h2 _ hv).1 trivial) hn

theorem meta_signer (hm : f ∈ c.kind.fields) (hk : c.account f = some k) (hd : f.default = none) (hn : f ∈ c.kind.signing) :
    accountMeta w (i.accounts f) = ⟨k, true, w⟩ := by
  have h1 := hf f hm
  have h2 := hs f hm
  rw [hk, hd] at h1
  cases hv : i.accounts f with
  | none => rw [hv] at h1; simp at h1
  | some x =>
    rw [hv] at h1
    cases x with
    | address a => exact absurd ((h2 _ hv).2 hn) (by simp [Value.signs])
    | signer a => simp [Value.key] at h1; subst h1; rfl

theorem meta_default (hm : f ∈ c.kind.fields) (hk : c.account f = some k) (hd : f.default = some d)
    (hn : f ∉ c.kind.signing) : accountMeta w (i.orElse f d) = ⟨k, false, w⟩ := by
  have h1 := hf f hm
  have h2 := hs f hm
  rw [hk, hd] at h1
  unfold Input.orElse
  cases hv : i.accounts f with
  | none => rw [hv] at h1; simp at h1; subst h1; rfl
  | some x =>
    rw [hv] at h1
    cases x with
    | address a => simp [Value.key] at h1; subst h1; rfl
    | signer a => exact absurd ((h2 _ hv).1 trivial) hn

theorem meta_keeper {k : Option Key} (hm : f ∈ c.kind.fields) (hk : c.account f = k) (hd : f.default = none)
    (hn : f ∉ c.kind.signing) :
    accountMeta true (i.accounts f) = (match (generalizing := false) k with | some k => writes k | none => reads progId) := by
  have h1 := hf f hm
  have h2 := hs f hm
  rw [hk, hd] at h1
  cases hv : i.accounts f with
  | none => rw [hv] at h1; simp at h1; subst h1; rfl
  | some x =>
    rw [hv] at h1
    cases x with
    | address a => simp [Value.key] at h1; subst h1; rfl
    | signer a => exact absurd ((h2 _ hv).1 trivial) hn

/-- The accounts of a call, by name. -/
theorem js_metas : i.metas c.kind = c.metas := by
  cases c <;>
    (simp only [Call.kind, Input.metas, Call.metas]
     repeat' apply congrArg₂
     all_goals
       first
       | rfl
       | (refine meta_plain hf hs ?_ ?_ ?_ ?_ <;> first | rfl | (simp only [Call.kind]; decide))
       | (refine meta_signer hf hs ?_ ?_ ?_ ?_ <;> first | rfl | (simp only [Call.kind]; decide))
       | (refine meta_default hf hs ?_ ?_ ?_ ?_ <;> first | rfl | (simp only [Call.kind]; decide))
       | (refine meta_keeper hf hs ?_ ?_ ?_ ?_ <;> first | rfl | (simp only [Call.kind]; decide)))

end

/-! ## Data -/

theorem encode8 {v : Int} {n : Nat} (h : v = (n : Int)) (hn : n < 2 ^ 64) : encodeInt 8 v = some (leBytes 8 n) := by
  subst h; exact encodeInt_nat (by simpa using hn)
theorem encode2 {v : Int} {n : Nat} (h : v = (n : Int)) (hn : n < 2 ^ 16) : encodeInt 2 v = some (leBytes 2 n) := by
  subst h; exact encodeInt_nat (by simpa using hn)
theorem encode32 {v x : List UInt8} (h : v = x) (hx : x.length = 32) : encodeAddress v = some x := by
  subst h; exact if_pos hx

theorem js_data {i : Input} {c : Call} (hT : c.Typed)
    (ha : ∀ a ∈ c.kind.arguments, ∀ x, c.argument a = some x → Means a (i.args a) x) : i.data c.kind = some c.data := by
  cases c with
  | initializeConfig a x =>
    obtain ⟨h1, h2, h3, h4, h5, h6⟩ := hT
    have e1 := encode32 (ha .slashAuthority (by simp [Call.kind, Kind.arguments]) _ rfl) h1
    have e2 := encode32 (ha .configAuthority (by simp [Call.kind, Kind.arguments]) _ rfl) h2
    have e3 := encode8 (ha .cooldownTimeSeconds (by simp [Call.kind, Kind.arguments]) _ rfl) h3
    have e4 := encode2 (ha .maxDeactivationBasisPoints (by simp [Call.kind, Kind.arguments]) _ rfl) h4
    have e5 := encode8 (ha .syncRewardsLamports (by simp [Call.kind, Kind.arguments]) _ rfl) h5
    have e6 : i.args .dunaDocumentHash = x.dunaDocumentHash :=
      ha .dunaDocumentHash (by simp [Call.kind, Kind.arguments]) _ rfl
    simp only [Call.kind, Input.data]
    refine Option.bind_eq_some_iff.2 ⟨_, rfl, ?_⟩
    refine Option.bind_eq_some_iff.2 ⟨_, e1, ?_⟩
    refine Option.bind_eq_some_iff.2 ⟨_, e2, ?_⟩
    refine Option.bind_eq_some_iff.2 ⟨_, e3, ?_⟩
    refine Option.bind_eq_some_iff.2 ⟨_, e4, ?_⟩
    refine Option.bind_eq_some_iff.2 ⟨_, e5, ?_⟩
    rw [e6, fixSize_exact h6]
    rfl
  | setAuthority a t =>
    have := ha .authorityType (.head _) _ rfl
    rcases this with ⟨e, rfl⟩ | ⟨e, rfl⟩ <;>
      (simp only [Call.kind, Input.data]
       refine Option.bind_eq_some_iff.2 ⟨_, rfl, ?_⟩
       change (encodeAuthorityType (show Int from i.args .authorityType)).bind _ = _
       change (show Int from i.args .authorityType) = _ at e
       rw [e]
       rfl)
  | updateConfig a f =>
    have h := ha .configField (.head _) _ rfl
    revert h
    simp only [Call.kind, Input.data]
    generalize hv : i.args .configField = v
    intro h
    cases v <;>
      (obtain ⟨n, rfl, rfl⟩ := h
       refine Option.bind_eq_some_iff.2 ⟨_, rfl, ?_⟩
       simp only [encodeConfigField]
       first
       | rw [encode8 rfl hT]; rfl
       | rw [encode2 rfl hT]; rfl)
  | initializeValidatorStake | initializeSolStakerStake | harvestHolderRewards | harvestValidatorRewards
  | harvestSolStakerRewards | validatorSyncAuthority => rfl
  | _ =>
    have e := encode8 (ha _ (.head _) _ rfl) hT
    simp only [Call.kind, Input.data]
    refine Option.bind_eq_some_iff.2 ⟨_, rfl, Option.bind_eq_some_iff.2 ⟨_, e, rfl⟩⟩

theorem bind_isSome_iff {α β : Type} {o : Option α} {f : α → Option β} {P Q : Prop} (ho : o.isSome = true ↔ Q)
    (k : ∀ a, (f a).isSome = true ↔ P) : (o.bind f).isSome = true ↔ Q ∧ P := by
  rw [← ho]
  cases o with
  | none => simp
  | some a => simp [k a]

theorem first_byte {β : Type} {f : List UInt8 → Option β} {n : Nat} {P : Prop} (h : n < 256)
    (k : ∀ a, (f a).isSome = true ↔ P) : ((encodeInt 1 n).bind f).isSome = true ↔ P := by
  rw [encodeInt_nat (by simpa using h)]; exact k _

theorem last_part {α β : Type} {o : Option α} {f : α → β} {Q : Prop} (ho : o.isSome = true ↔ Q) :
    (o.bind fun a => some (f a)).isSome = true ↔ Q := by
  rw [← ho]; cases o <;> simp

theorem accepts8 {v : Int} : (encodeInt 8 v).isSome = true ↔ 0 ≤ v ∧ v < 2 ^ 64 := encodeInt_isSome
theorem accepts2 {v : Int} : (encodeInt 2 v).isSome = true ↔ 0 ≤ v ∧ v < 2 ^ 16 := encodeInt_isSome
theorem accepts32 {v : List UInt8} : (encodeAddress v).isSome = true ↔ v.length = 32 := by
  unfold encodeAddress; split_ifs with h <;> simp [h]
theorem accepts_type {v : Int} : (encodeAuthorityType v).isSome = true ↔ v = 0 ∨ v = 1 := by
  unfold encodeAuthorityType
  split_ifs with h
  · rcases h with rfl | rfl <;> simp [encodeInt]
  · simp [h]
theorem accepts_field {v : FieldArgs} : (encodeConfigField v).isSome = true ↔ Accepts .configField v := by
  cases v with
  | cooldownTimeSeconds => exact first_byte (n := 0) (by decide) fun _ => last_part accepts8
  | maxDeactivationBasisPoints => exact first_byte (n := 1) (by decide) fun _ => last_part accepts2
  | syncRewardsLamports => exact first_byte (n := 2) (by decide) fun _ => last_part accepts8

theorem js_data_isSome {i : Input} {kind : Kind} :
    (i.data kind).isSome = true ↔ ∀ a ∈ kind.arguments, Accepts a (i.args a) := by
  cases kind with
  | initializeConfig =>
    simp only [Kind.arguments, List.forall_mem_cons, List.not_mem_nil, false_imp_iff, implies_true, and_true]
    have := first_byte (n := 0) (by decide) fun d =>
      bind_isSome_iff (accepts32 (v := i.args .slashAuthority)) fun a =>
      bind_isSome_iff (accepts32 (v := i.args .configAuthority)) fun b =>
      bind_isSome_iff (accepts8 (v := i.args .cooldownTimeSeconds)) fun c =>
      bind_isSome_iff (accepts2 (v := i.args .maxDeactivationBasisPoints)) fun e =>
      last_part (f := fun g => d ++ (a ++ (b ++ (c ++ (e ++ (g ++ fixSize 32 (i.args .dunaDocumentHash)))))))
        (accepts8 (v := i.args .syncRewardsLamports))
    refine Iff.trans this ?_
    exact ⟨fun ⟨h1, h2, h3, h4, h5⟩ => ⟨h1, h2, h3, h4, h5, trivial⟩, fun ⟨h1, h2, h3, h4, h5, _⟩ => ⟨h1, h2, h3, h4, h5⟩⟩
  | setAuthority =>
    simp only [Kind.arguments, List.forall_mem_cons, List.not_mem_nil, false_imp_iff, implies_true, and_true]
    exact first_byte (n := 6) (by decide) fun d => last_part (f := (d ++ ·)) (accepts_type (v := i.args .authorityType))
  | updateConfig =>
    simp only [Kind.arguments, List.forall_mem_cons, List.not_mem_nil, false_imp_iff, implies_true, and_true]
    exact first_byte (n := 7) (by decide) fun d => last_part (f := (d ++ ·)) (accepts_field (v := i.args .configField))
  | initializeValidatorStake | initializeSolStakerStake | harvestHolderRewards | harvestValidatorRewards
  | harvestSolStakerRewards | validatorSyncAuthority => exact ⟨fun _ _ h => absurd h (List.not_mem_nil), fun _ => rfl⟩
  | validatorStakeTokens =>
    simp only [Kind.arguments, List.forall_mem_cons, List.not_mem_nil, false_imp_iff, implies_true, and_true]
    exact first_byte (n := 2) (by decide) fun d => last_part (f := (d ++ ·)) (accepts8 (v := i.args .amount))
  | solStakerStakeTokens =>
    simp only [Kind.arguments, List.forall_mem_cons, List.not_mem_nil, false_imp_iff, implies_true, and_true]
    exact first_byte (n := 9) (by decide) fun d => last_part (f := (d ++ ·)) (accepts8 (v := i.args .amount))
  | unstakeTokens =>
    simp only [Kind.arguments, List.forall_mem_cons, List.not_mem_nil, false_imp_iff, implies_true, and_true]
    exact first_byte (n := 11) (by decide) fun d => last_part (f := (d ++ ·)) (accepts8 (v := i.args .amount))
  | slashValidatorStake =>
    simp only [Kind.arguments, List.forall_mem_cons, List.not_mem_nil, false_imp_iff, implies_true, and_true]
    exact first_byte (n := 5) (by decide) fun d => last_part (f := (d ++ ·)) (accepts8 (v := i.args .amount))
  | slashSolStakerStake =>
    simp only [Kind.arguments, List.forall_mem_cons, List.not_mem_nil, false_imp_iff, implies_true, and_true]
    exact first_byte (n := 12) (by decide) fun d => last_part (f := (d ++ ·)) (accepts8 (v := i.args .amount))
  | solStakerMoveTokens =>
    simp only [Kind.arguments, List.forall_mem_cons, List.not_mem_nil, false_imp_iff, implies_true, and_true]
    exact first_byte (n := 13) (by decide) fun d => last_part (f := (d ++ ·)) (accepts8 (v := i.args .amount))
  | validatorOverrideStakedLamports =>
    simp only [Kind.arguments, List.forall_mem_cons, List.not_mem_nil, false_imp_iff, implies_true, and_true]
    exact first_byte (n := 14) (by decide) fun d => last_part (f := (d ++ ·)) (accepts8 (v := i.args .amountMin))

/-! ## Parsing -/

theorem read8 {n : Nat} {b : List UInt8} (h : n < 2 ^ 64) : readInt 8 (leBytes 8 n ++ b) = some (n, b) :=
  readInt_append (by simpa using h)
theorem read2 {n : Nat} {b : List UInt8} (h : n < 2 ^ 16) : readInt 2 (leBytes 2 n ++ b) = some (n, b) :=
  readInt_append (by simpa using h)
theorem read1 {n : Nat} {b : List UInt8} (h : n < 256) : readInt 1 (leBytes 1 n ++ b) = some (n, b) :=
  readInt_append (by simpa using h)

theorem readAuthorityType_borsh {t : AuthorityType} {rest : List UInt8} :
    readAuthorityType (t.borsh ++ rest) = some (t, rest) := by
  cases t <;>
    (simp only [AuthorityType.borsh, borshEnum, List.append_nil, readAuthorityType]
     rw [read1 (by decide)]; rfl)

theorem readConfigField_borsh {f : ConfigField} {rest : List UInt8}
    (h : ∀ {a}, (Call.updateConfig a f).Typed) : readConfigField (f.borsh ++ rest) = some (f, rest) := by
  have h := @h ⟨progId, progId⟩
  cases f with
  | cooldownTimeSeconds n | syncRewardsLamports n =>
    simp only [ConfigField.borsh, borshEnum, borshU64, List.append_assoc, readConfigField]
    rw [read1 (by decide)]
    simp [read8 (b := rest) h]
  | maxDeactivationBasisPoints n =>
    simp only [ConfigField.borsh, borshEnum, borshU16, List.append_assoc, readConfigField]
    rw [read1 (by decide)]
    simp [read2 (b := rest) h]

theorem decode_data {c : Call} (hT : c.Typed) (rest : List UInt8) : decodeData c.kind (c.data ++ rest) = some c.argument := by
  cases c with
  | initializeConfig a x =>
    obtain ⟨h1, h2, h3, h4, h5, h6⟩ := hT
    simp only [Call.kind, Call.data, decodeData, borshU8, borshU16, borshU64, List.append_assoc]
    refine bind_some_of (read1 (by decide)).symm ?_
    refine bind_some_of (readBytes_append h1).symm ?_
    refine bind_some_of (readBytes_append h2).symm ?_
    refine bind_some_of (read8 h3).symm ?_
    refine bind_some_of (read2 h4).symm ?_
    refine bind_some_of (read8 h5).symm ?_
    refine bind_some_of (readBytes_append h6).symm ?_
    refine congrArg some (funext fun a => ?_)
    cases a <;> rfl
  | setAuthority a t =>
    simp only [Call.kind, Call.data, decodeData, borshU8, List.append_assoc]
    refine bind_some_of (read1 (n := 6) (by decide)).symm ?_
    refine bind_some_of readAuthorityType_borsh.symm (congrArg some (funext fun a => ?_))
    cases a <;> rfl
  | updateConfig a f =>
    simp only [Call.kind, Call.data, decodeData, borshU8, List.append_assoc]
    refine bind_some_of (read1 (n := 7) (by decide)).symm ?_
    refine bind_some_of (readConfigField_borsh fun {_} => by cases f <;> exact hT).symm (congrArg some (funext fun a => ?_))
    cases a <;> rfl
  | initializeValidatorStake | initializeSolStakerStake | harvestHolderRewards | harvestValidatorRewards
  | harvestSolStakerRewards | validatorSyncAuthority =>
    simp only [Call.kind, Call.data, decodeData, borshU8]
    refine bind_some_of (read1 (by decide)).symm (congrArg some (funext fun a => ?_))
    cases a <;> rfl
  | _ =>
    simp only [Call.kind, Call.data, decodeData, borshU8, borshU64, List.append_assoc]
    refine bind_some_of (read1 (by decide)).symm ?_
    refine bind_some_of (read8 hT).symm (congrArg some (funext fun a => ?_))
    cases a <;> rfl

theorem js_found_key {c : Call} {extra : List Meta} (f : Field) :
    ((((parseOrder c.kind).zip (c.metas ++ extra)).lookup f).map (·.key) =
      if f = .keeperRecipient then
        (match c with | .harvestSolStakerRewards a => some (a.keeperRecipient.getD progId) | _ => none)
      else c.account f) ∧
    (∀ m, ((parseOrder c.kind).zip (c.metas ++ extra)).lookup f = some m → (m.signer = true ↔ f ∈ c.kind.signing)) := by
  cases c with
  | harvestSolStakerRewards a =>
    obtain ⟨a0, a1, a2, a3, a4, a5, a6, a7, a8, a9, a10, keeper⟩ := a
    constructor
    · cases f <;> cases keeper <;> rfl
    · intro m h
      cases f <;> cases keeper <;> cases h <;> simp [Call.kind, Kind.signing, reads, writes]
  | _ =>
    constructor
    · cases f <;> rfl
    · intro m h
      cases f <;> cases h <;> simp [Call.kind, Kind.signing, reads, writes, signs, signsWrites]

theorem js_parse {c : Call} (hT : c.Typed) {program : Key} {extra : List Meta} {rest : List UInt8} :
    ∃ p, parse c.kind { program := program, metas := c.metas ++ extra, data := c.data ++ rest } = some p ∧
      p.program = program ∧ (∀ f, (p.accounts f).map (·.key) = c.account f) ∧ p.args = c.argument ∧
      ∀ f m, p.accounts f = some m → (m.signer = true ↔ f ∈ c.kind.signing) := by
  have hl : ¬ (c.metas ++ extra).length < (parseOrder c.kind).length := by
    cases c <;> simp [Call.metas, Call.kind, parseOrder]
  have hp : parse c.kind { program := program, metas := c.metas ++ extra, data := c.data ++ rest } = some
      { program := program
        accounts := fun f =>
          if f = .keeperRecipient then (((parseOrder c.kind).zip (c.metas ++ extra)).lookup f).filter (·.key ≠ progId)
          else ((parseOrder c.kind).zip (c.metas ++ extra)).lookup f
        args := c.argument } := by
    unfold parse
    rw [decode_data hT]
    simp only [if_neg hl]
    rfl
  refine ⟨_, hp, rfl, fun f => ?_, rfl, fun f m => ?_⟩
  · have := (js_found_key (c := c) (extra := extra) f).1
    dsimp only
    split_ifs with h
    · subst h
      rw [if_pos rfl] at this
      cases c with
      | harvestSolStakerRewards a =>
        obtain ⟨a0, a1, a2, a3, a4, a5, a6, a7, a8, a9, a10, keeper⟩ := a
        cases keeper with
        | none => rfl
        | some k =>
          have hk : k ≠ progId := by simpa [Call.Typed] using hT
          change ((some (writes k)).filter (·.key ≠ progId)).map (·.key) = some k
          simp [Option.filter, writes, hk]
      | _ => rfl
    · rw [if_neg h] at this; exact this
  · have := (js_found_key (c := c) (extra := extra) f).2
    dsimp only
    split_ifs with h
    · intro hm
      exact this m (Option.filter_eq_some_iff.1 hm).1
    · exact this m

end Verif.Client.Js
