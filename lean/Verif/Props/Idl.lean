import Verif.SpecIdl
import Verif.Props.Client
/-!
# The IDL

C88: a tool that knows nothing but the IDL, with the corrections of the generator script, talks to the program correctly.
-/

namespace Verif.Props

open Verif Verif.Client Verif.Idl Verif.Layout

variable {env : Env} {o : Oracle} {w : World} {c : Call} {payer : Key}

/-! ## Types -/

theorem wf_field {n : String} {t r : Ty} (h : (Ty.field n t r).wf = true) : t.wf = true ∧ r.wf = true := by
  cases r <;> simp_all [Ty.wf]

theorem wf_variant {n : String} {t r : Ty} (h : (Ty.variant n t r).wf = true) : t.wf = true ∧ r.wf = true := by
  cases r <;> simp_all [Ty.wf]

/-- **C88.** Decoding undoes encoding: whatever follows the encoding is left over. -/
theorem C88_decode_encode {t : Ty} {v : Value} {b rest : List UInt8} (ht : t.wf = true) (h : encode t 0 v = some b) :
    decode t none (b ++ rest) = some (v, rest) := by
  suffices H : ∀ (t : Ty) (k : Nat) (v : Value) (b : List UInt8), t.wf = true → encode t k v = some b →
      (k = 0 → ∀ rest, decode t none (b ++ rest) = some (v, rest)) ∧
      (∀ n p r, t = .variant n p r → ∃ i b', k + i < 256 ∧ b = leBytes 1 (k + i) ++ b' ∧
        ∀ rest, decode t (some i) (b' ++ rest) = some (v, rest)) from (H t 0 v b ht h).1 rfl rest
  clear h ht t v b rest
  intro t
  induction t with
  | int m =>
    intro k v b ht h
    refine ⟨fun _ rest => ?_, by simp⟩
    cases v <;> simp only [encode, reduceCtorEq] at h
    split_ifs at h with hn
    cases h
    simp [decode, readInt_append hn]
  | bytes m =>
    intro k v b ht h
    refine ⟨fun _ rest => ?_, by simp⟩
    cases v <;> simp only [encode, reduceCtorEq] at h
    split_ifs at h with hn
    cases h
    simp [decode, readBytes_append hn]
  | named => intro k v b ht h; simp [encode] at h
  | unit =>
    intro k v b ht h
    refine ⟨fun _ rest => ?_, by simp⟩
    cases v <;> simp only [encode, reduceCtorEq] at h
    cases h; rfl
  | never => intro k v b ht h; simp [encode] at h
  | field n t r iht ihr =>
    intro k v b ht h
    have hw := wf_field ht
    refine ⟨fun _ rest => ?_, by simp⟩
    cases v <;> simp only [encode, reduceCtorEq] at h
    obtain ⟨b1, h1, h⟩ := Option.bind_eq_some_iff.1 h
    obtain ⟨b2, h2, h⟩ := Option.bind_eq_some_iff.1 h
    cases h
    simp only [decode, List.append_assoc, (iht 0 _ _ hw.1 h1).1 rfl, (ihr 0 _ _ hw.2 h2).1 rfl, bind, Option.bind_some, pure]
  | variant n p r ihp ihr =>
    intro k v b ht h
    have hw := wf_variant ht
    have key : ∃ i b', k + i < 256 ∧ b = leBytes 1 (k + i) ++ b' ∧
        ∀ rest, decode (.variant n p r) (some i) (b' ++ rest) = some (v, rest) := by
      cases v <;> simp only [encode, reduceCtorEq] at h
      · obtain ⟨b1, h1, h⟩ := Option.bind_eq_some_iff.1 h
        split_ifs at h with hk
        cases h
        exact ⟨0, b1, by omega, rfl, fun rest => by simp [decode, (ihp 0 _ _ hw.1 h1).1 rfl]⟩
      · rename_i v
        cases r with
        | variant n' p' r' =>
          obtain ⟨i, b', hi, rfl, hd⟩ := (ihr _ _ _ hw.2 h).2 _ _ _ rfl
          refine ⟨i + 1, b', by omega, by rw [show k + 1 + i = k + (i + 1) by omega], fun rest => ?_⟩
          rw [show decode (.variant n p (.variant n' p' r')) (some (i + 1)) (b' ++ rest) =
            (decode (.variant n' p' r') (some i) (b' ++ rest)).bind fun x => some (.there x.1, x.2) from rfl]
          simp only [hd, Option.bind_some]
        | never => simp [encode] at h
        | _ => simp [Ty.wf] at ht
    refine ⟨fun hk rest => ?_, fun _ _ _ _ => key⟩
    subst hk
    obtain ⟨i, b', hi, rfl, hd⟩ := key
    have := hd rest
    simp only [decode, List.append_assoc, Nat.zero_add, bind, Option.bind_some,
      readInt_append (n := 1) (m := i) (show i < 256 ^ 1 by omega)] at this ⊢
    exact this

/-- **C88.** Encoding undoes decoding: the bytes consumed are the encoding of the value. -/
theorem C88_encode_decode {t : Ty} {v : Value} {b rest : List UInt8} (ht : t.wf = true)
    (h : decode t none b = some (v, rest)) : ∃ x, encode t 0 v = some x ∧ b = x ++ rest := by
  suffices H : ∀ (t : Ty) (v : Value) (b rest : List UInt8), t.wf = true →
      (decode t none b = some (v, rest) → ∃ x, encode t 0 v = some x ∧ b = x ++ rest) ∧
      (∀ n p r, t = .variant n p r → ∀ i k, k + i < 256 → decode t (some i) b = some (v, rest) →
        ∃ x, encode t k v = some (leBytes 1 (k + i) ++ x) ∧ b = x ++ rest) from (H t v b rest ht).1 h
  clear h ht t v b rest
  intro t
  induction t with
  | int m =>
    intro v b rest ht
    refine ⟨fun h => ?_, by simp⟩
    obtain ⟨⟨n, b'⟩, h1, h2⟩ := Option.bind_eq_some_iff.1 h
    cases h2
    unfold readInt at h1
    split_ifs at h1 with hl
    cases h1
    have hlen : (b.take m).length = m := by simp [hl]
    refine ⟨b.take m, ?_, by simp⟩
    rw [encode, if_pos (by have := leNat_lt (b.take m); rwa [hlen] at this)]
    congr 1
    have := leBytes_leNat (b.take m)
    rwa [hlen] at this
  | bytes m =>
    intro v b rest ht
    refine ⟨fun h => ?_, by simp⟩
    obtain ⟨⟨n, b'⟩, h1, h2⟩ := Option.bind_eq_some_iff.1 h
    cases h2
    unfold readBytes at h1
    split_ifs at h1 with hl
    cases h1
    exact ⟨b.take m, by rw [encode, if_pos (by simp [hl])], by simp⟩
  | named => intro v b rest ht; exact ⟨fun h => by simp [decode] at h, by simp⟩
  | unit =>
    intro v b rest ht
    refine ⟨fun h => ?_, by simp⟩
    cases h
    exact ⟨[], rfl, rfl⟩
  | never => intro v b rest ht; exact ⟨fun h => by simp [decode] at h, by simp⟩
  | field n t r iht ihr =>
    intro v b rest ht
    have hw := wf_field ht
    refine ⟨fun h => ?_, by simp⟩
    obtain ⟨⟨v1, b1⟩, h1, h⟩ := Option.bind_eq_some_iff.1 h
    obtain ⟨⟨v2, b2⟩, h2, h⟩ := Option.bind_eq_some_iff.1 h
    cases h
    obtain ⟨x1, e1, rfl⟩ := (iht _ _ _ hw.1).1 h1
    obtain ⟨x2, e2, rfl⟩ := (ihr _ _ _ hw.2).1 h2
    exact ⟨x1 ++ x2, by simp [encode, e1, e2], by simp⟩
  | variant n p r ihp ihr =>
    intro v b rest ht
    have hw := wf_variant ht
    have key : ∀ i k b, k + i < 256 → decode (.variant n p r) (some i) b = some (v, rest) →
        ∃ x, encode (.variant n p r) k v = some (leBytes 1 (k + i) ++ x) ∧ b = x ++ rest := by
      intro i k b hk h
      simp only [decode, bind, Option.bind_some] at h
      split_ifs at h with hi
      · subst hi
        obtain ⟨⟨v1, b1⟩, h1, h⟩ := Option.bind_eq_some_iff.1 h
        cases h
        obtain ⟨x, e, rfl⟩ := (ihp _ _ _ hw.1).1 h1
        exact ⟨x, by simp [encode, e]; omega, rfl⟩
      · obtain ⟨⟨v1, b1⟩, h1, h⟩ := Option.bind_eq_some_iff.1 h
        cases h
        cases r with
        | variant n' p' r' =>
          obtain ⟨x, e, rfl⟩ := (ihr _ _ _ hw.2).2 _ _ _ rfl (i - 1) (k + 1) (by omega) h1
          exact ⟨x, by rw [encode, e, show k + 1 + (i - 1) = k + i by omega], rfl⟩
        | never => simp [decode] at h1
        | _ => simp [Ty.wf] at ht
    refine ⟨fun h => ?_, fun _ _ _ _ i k => key i k b⟩
    obtain ⟨⟨i, b1⟩, h1, h2⟩ := Option.bind_eq_some_iff.1 h
    unfold readInt at h1
    split_ifs at h1 with hl
    cases h1
    have hlen : (b.take 1).length = 1 := by simp [hl]
    have hlt : leNat (b.take 1) < 256 := by have := leNat_lt (b.take 1); rwa [hlen] at this
    obtain ⟨x, e, hx⟩ := key (leNat (b.take 1)) 0 (b.drop 1) (by omega) (by
      simp only [decode, bind, Option.bind_some]; exact h2)
    refine ⟨_, e, ?_⟩
    have := leBytes_leNat (b.take 1)
    rw [hlen] at this
    rw [Nat.zero_add, this, List.append_assoc, ← hx, List.take_append_drop]

/-- The enum for "set the sync reward to 5" is its index and the number; 200 is not the index of a variant. -/
example : encode configField 0 (configFieldValue (.syncRewardsLamports 5)) = some [2, 5, 0, 0, 0, 0, 0, 0, 0] ∧
    decode configField none [2, 5, 0, 0, 0, 0, 0, 0, 0, 77] = some (configFieldValue (.syncRewardsLamports 5), [77]) ∧
    decode configField none [200, 5, 0, 0, 0, 0, 0, 0, 0] = none ∧ configField.wf = true := by decide

/-! ## Requests -/

theorem idl_metas : (instruction c.kind).accounts.mapM (·.meta c.account) = some c.metas := by
  cases c with
  | harvestSolStakerRewards a =>
    obtain ⟨_, _, _, _, _, _, _, _, _, _, _, k⟩ := a
    cases k <;> rfl
  | _ => rfl

theorem idl_data (hT : c.Typed) : ∃ d, encodeArgs c.kind (fun s => (arguments c).lookup s) (instruction c.kind).args = some d ∧
    leBytes 1 (instruction c.kind).discriminant ++ d = c.data := by
  cases c with
  | setAuthority a t => cases t <;> exact ⟨_, rfl, rfl⟩
  | updateConfig a f =>
    cases f <;>
      simp only [Call.Typed, Nat.reducePow] at hT <;>
      simp [Call.kind, instruction, encodeArgs, rename, arguments, configFieldValue, configField, addMissing, record, encode,
        hT, Call.data, Client.ConfigField.borsh, borshEnum, borshU64, borshU16, borshU8]
  | initializeConfig a x =>
    obtain ⟨t1, t2, t3, t4, t5, t6⟩ := hT
    simp only [Nat.reducePow] at t3 t4 t5
    simp [Call.kind, instruction, encodeArgs, rename, arguments, addMissing, encode, List.lookup, t1, t2, t3, t4, t5, t6,
      Call.data, borshU64, borshU16, borshU8]
  | _ =>
    first
    | exact ⟨_, rfl, rfl⟩
    | simp only [Call.Typed, Nat.reducePow] at hT
      simp [Call.kind, instruction, encodeArgs, rename, arguments, addMissing, encode, hT, Call.data, borshU64, borshU8]

/-- **C88.** From the accounts and arguments of a call, given by name, a tool driven by the IDL builds the request of the Rust
client: same program, same accounts in the same order with the same flags, same data. -/
theorem C88_idl_request (hT : c.Typed) :
    Idl.request c.kind c.account (fun s => (arguments c).lookup s) = some c.request := by
  obtain ⟨d, h1, h2⟩ := idl_data hT
  simp only [Idl.request, idl_metas, h1, h2, bind, Option.bind_some, pure]
  rfl

/-- **C88.** Hence the program runs the handler of the call on the accounts as the call names them. -/
theorem C88_idl_runs (hT : c.Typed) {r : Request}
    (h : Idl.request c.kind c.account (fun s => (arguments c).lookup s) = some r) :
    processInstruction env o w (r.ix payer) = c.run env o (r.ix payer).ctx w ∧ (r.ix payer).decoded = some c.meaning := by
  rw [C88_idl_request hT] at h
  cases h
  exact ⟨C64_client_runs hT, C64_client_decodes hT⟩

theorem idl_required {f : Field} (hf : f ≠ .keeperRecipient) (h : (c.account f).isSome = true) :
    ∃ a ∈ (instruction c.kind).accounts, a.name = f ∧ a.isOptional = false := by
  have key : ((instruction c.kind).accounts.any fun a => decide (a.name = f) && !a.isOptional) = true := by
    cases c <;> cases f <;> first | rfl | exact absurd rfl hf | cases h
  obtain ⟨a, h1, h2⟩ := List.any_eq_true.1 key
  simp only [Bool.and_eq_true, decide_eq_true_eq, Bool.not_eq_true'] at h2
  exact ⟨a, h1, h2⟩

theorem mapM_given {l : List AccountDesc} {g : Field → Option Key} {m : List Meta} (h : l.mapM (·.meta g) = some m) {a : AccountDesc}
    (ha : a ∈ l) (ho : a.isOptional = false) : (g a.name).isSome = true := by
  induction l generalizing m with
  | nil => cases ha
  | cons b l ih =>
    rw [List.mapM_cons] at h
    cases hb : b.meta g with
    | none => rw [hb] at h; cases h
    | some x =>
      cases hl : l.mapM (·.meta g) with
      | none => rw [hb, hl] at h; cases h
      | some y =>
        rcases List.mem_cons.1 ha with rfl | ha
        · unfold AccountDesc.meta at hb
          cases hg : g a.name with
          | some k => rfl
          | none => rw [hg, ho] at hb; cases hb
        · exact ih hl ha

theorem encodeArgs_given {kind : Kind} {g : String → Option Value} {l : List (String × Ty)} {d : List UInt8}
    (h : encodeArgs kind g l = some d) {p : String × Ty} (hp : p ∈ l) : (g (rename kind p.1)).isSome = true := by
  induction l generalizing d with
  | nil => cases hp
  | cons q l ih =>
    obtain ⟨n, t⟩ := q
    unfold encodeArgs at h
    cases hg : g (rename kind n) with
    | none => rw [hg] at h; cases h
    | some v =>
      rw [hg] at h
      cases he : encode (addMissing t) 0 v with
      | none => simp [he] at h
      | some b =>
        cases hr : encodeArgs kind g l with
        | none => simp [hr] at h
        | some r =>
          rcases List.mem_cons.1 hp with rfl | hp
          · rw [hg]; rfl
          · exact ih hr hp

theorem argument_names : (arguments c).map Prod.fst = (instruction c.kind).args.map fun q => rename c.kind q.1 := by
  cases c <;> rfl

/-- **C88.** The tool notices what is missing: it builds a request only if it is given every account of the instruction, except perhaps the
keeper, and every argument. -/
theorem C88_idl_nothing_missing {accounts : Field → Option Key} {args : String → Option Value} {r : Request}
    (h : Idl.request c.kind accounts args = some r) :
    (∀ f, f ≠ .keeperRecipient → (c.account f).isSome = true → (accounts f).isSome = true) ∧
    ∀ p ∈ arguments c, (args p.1).isSome = true := by
  unfold Idl.request at h
  simp only at h
  cases hm : (instruction c.kind).accounts.mapM (·.meta accounts) with
  | none => rw [hm] at h; cases h
  | some m =>
    cases hd : encodeArgs c.kind args (instruction c.kind).args with
    | none => simp [hm, hd] at h
    | some d =>
      refine ⟨fun f hf hs => ?_, fun p hp => ?_⟩
      · obtain ⟨a, ha, rfl, ho⟩ := idl_required hf hs
        exact mapM_given hm ha ho
      · have hp' : p.1 ∈ (instruction c.kind).args.map fun q => rename c.kind q.1 := by
          rw [← argument_names]; exact List.mem_map_of_mem hp
        obtain ⟨q, hq, e⟩ := List.mem_map.1 hp'
        rw [← e]; exact encodeArgs_given hd hq

/-- Without the vault nothing is built. -/
example : Idl.request stakeVal1.kind (fun f => if f = .vault then none else stakeVal1.account f)
    (fun s => (arguments stakeVal1).lookup s) = none ∧ (stakeVal1.account .vault).isSome = true := by decide

/-- A request for the stake of 2000 tokens of the witness history. -/
example : stakeVal1.Typed ∧ Idl.request stakeVal1.kind stakeVal1.account (fun s => (arguments stakeVal1).lookup s) =
    some stakeVal1.request := ⟨stakeVal1_typed, C88_idl_request stakeVal1_typed⟩

/-- Without the rename of the generator the argument would not be found: it is called "args" in the IDL. -/
example : (instruction .validatorStakeTokens).args = [("args", .int 8)] ∧
    (arguments stakeVal1).lookup "args" = none := by decide

/-! ## Accounts -/

/-- **C88.** By the corrected IDL every account the program accepts as a config decodes to the same values, with nothing left
over. -/
theorem C88_idl_config {b : List UInt8} {r : RawConfig} (h : readConfig b = .ok r) :
    decode (addMissing config) none b = some (configValue r, []) := by
  obtain ⟨f, rfl⟩ := C32_config_write_read h
  have := C88_decode_encode (t := addMissing config) (v := configValue r) (b := r.write) (rest := []) (by decide) (by
    have h1 := f.cooldownTime; have h2 := f.effTotal; have h3 := f.syncRewards; have h4 := f.lamportsLast; have h5 := f.acc
    have h6 := f.maxBps; have h7 := f.bump
    simp only [Nat.reducePow] at h1 h2 h3 h4 h5 h6 h7
    simp [config, addMissing, configValue, record, encode, RawConfig.write, f.authority, f.slashAuthority, f.vault, f.dunaHash,
      f.padding, h1, h2, h3, h4, h5, h6, h7, show configDisc.length = 8 from rfl])
  simpa using this

theorem delegation_encode {d : RawDelegation} (f : FitsDelegation d) :
    encode (addMissing delegation) 0 (delegationValue d) = some (d.write []) := by
  have h1 := f.staked; have h2 := f.effective; have h3 := f.cooldown; have h4 := f.lastHolder; have h5 := f.lastStake
  simp only [Nat.reducePow] at h1 h2 h3 h4 h5
  simp [delegation, addMissing, delegationValue, record, encode, RawDelegation.write, f.authority, f.vote, h1, h2, h3, h4, h5]

theorem delegation_write_append {d : RawDelegation} {rest : List UInt8} : d.write rest = d.write [] ++ rest := by
  simp [RawDelegation.write]

/-- **C88.** The same for validator stakes. -/
theorem C88_idl_validator {b : List UInt8} {r : RawValidator} (h : readValidator b = .ok r) :
    decode (addMissing validatorStake) none b = some (validatorValue r, []) := by
  obtain ⟨⟨fd, h1, h2⟩, rfl⟩ := C32_validator_write_read h
  have := C88_decode_encode (t := addMissing validatorStake) (v := validatorValue r) (b := r.write) (rest := []) (by decide) (by
    simp only [Nat.reducePow] at h1 h2
    rw [RawValidator.write, delegation_write_append, show addMissing validatorStake =
      .field "discriminator" (.bytes 8) (.field "delegation" (addMissing delegation)
        (.field "totalStakedLamportsAmount" (.int 8) (.field "totalStakedLamportsAmountMin" (.int 8) .unit))) from rfl]
    simp [validatorValue, record, encode, delegation_encode fd, h1, h2, show validatorDisc.length = 8 from rfl])
  simpa using this

/-- **C88.** The same for SOL staker stakes. -/
theorem C88_idl_sol_staker {b : List UInt8} {r : RawSolStaker} (h : readSolStaker b = .ok r) :
    decode (addMissing solStakerStake) none b = some (solStakerValue r, []) := by
  obtain ⟨⟨fd, h1, h2⟩, rfl⟩ := C32_sol_staker_write_read h
  have := C88_decode_encode (t := addMissing solStakerStake) (v := solStakerValue r) (b := r.write) (rest := []) (by decide) (by
    simp only [Nat.reducePow] at h1
    rw [RawSolStaker.write, delegation_write_append, show addMissing solStakerStake =
      .field "discriminator" (.bytes 8) (.field "delegation" (addMissing delegation)
        (.field "lamportsAmount" (.int 8) (.field "solStake" (.bytes 32) .unit))) from rfl]
    simp [solStakerValue, record, encode, delegation_encode fd, h1, h2, show solStakerDisc.length = 8 from rfl])
  simpa using this

/-- Some field of the struct has a type that is not defined. -/
def undefinedField : Ty → Bool
  | .named _ => true
  | .field _ t r => undefinedField t || undefinedField r
  | _ => false

theorem decode_undefined {t : Ty} (h : undefinedField t = true) : ∀ b, decode t none b = none := by
  induction t with
  | named => intro b; rfl
  | field n t r iht ihr =>
    intro b
    simp only [undefinedField, Bool.or_eq_true] at h
    rw [decode]
    rcases h with h | h
    · rw [iht h]; rfl
    · cases hd : decode t none b with
      | none => rfl
      | some x => simp only [bind, Option.bind_some, ihr h, Option.bind_none]
  | _ => simp [undefinedField] at h

/-- **C88.** The IDL as it is does not suffice: it names two types, `OptionalNonZeroPubkey` and `PodU128`, that it does not
define, so by the IDL alone no account of the program can be decoded. -/
theorem C88_idl_accounts_undefined (b : List UInt8) :
    decode config none b = none ∧ decode validatorStake none b = none ∧ decode solStakerStake none b = none :=
  ⟨decode_undefined (by decide) b, decode_undefined (by decide) b, decode_undefined (by decide) b⟩

/-- The number of bytes of a struct of numbers and byte strings. -/
def structSize : Ty → Nat
  | .int n | .bytes n => n
  | .field _ t r => structSize t + structSize r
  | _ => 0

/-- **C88.** The sizes the generator script gives the clients are those of the corrected types and of the program. -/
theorem C88_idl_sizes : structSize (addMissing config) = configSize ∧ structSize (addMissing validatorStake) = validatorStakeSize ∧
    structSize (addMissing solStakerStake) = solStakerStakeSize ∧ configSize = configLen ∧ validatorStakeSize = validatorLen ∧
    solStakerStakeSize = solStakerLen := by decide

/-- A validator stake with extreme values, decoded by the IDL. -/
example : decode (addMissing validatorStake) none
      (RawValidator.write { del := bigDelegation, total := 2 ^ 64 - 1, min := 3 }) =
    some (validatorValue { del := bigDelegation, total := 2 ^ 64 - 1, min := 3 }, []) :=
  C88_idl_validator (C32_validator_read_write _ ⟨bigDelegation_fits, by decide, by decide⟩)

end Verif.Props
