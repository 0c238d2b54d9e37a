import Verif.Model.JsFetch
import Verif.Props.JsAccounts
/-!
# C127: fetching accounts with the JavaScript client
-/

namespace Verif.Props

open Verif Verif.Client Verif.Layout

variable {α : Type} {decode : List UInt8 → Option α} {rpc : Js.Rpc} {a : Key} {as : List Key} {b : List UInt8}

private theorem fetch_eq : Js.fetch decode rpc a =
    match rpc a with
    | none => .error (.accountNotFound a)
    | some b => match decode b with
      | some r => .ok ⟨a, r⟩
      | none => .error (.failedToDecode a) := by
  unfold Js.fetch Js.fetchMaybe Js.fetchEncodedAccount Js.decodeAccount
  dsimp only
  cases rpc a with
  | none => rfl
  | some b =>
    dsimp only
    cases decode b <;> rfl

/-- **C127.** Fetching one account of the program as what it is gives the address and the values the program has stored. -/
theorem C127_fetch_config {r : RawConfig} (h : rpc a = some b) (hr : readConfig b = .ok r) :
    Js.fetchConfig rpc a = .ok ⟨a, Js.showConfig r⟩ := by
  unfold Js.fetchConfig
  rw [fetch_eq, h]
  dsimp only
  rw [C85_js_config hr]

/-- **C127.** The same for validator stake accounts. -/
theorem C127_fetch_validator {r : RawValidator} (h : rpc a = some b) (hr : readValidator b = .ok r) :
    Js.fetchValidatorStake rpc a = .ok ⟨a, Js.showValidatorStake r⟩ := by
  unfold Js.fetchValidatorStake
  rw [fetch_eq, h]
  dsimp only
  rw [C85_js_validator hr]

/-- **C127.** The same for SOL staker stake accounts. -/
theorem C127_fetch_sol_staker {r : RawSolStaker} (h : rpc a = some b) (hr : readSolStaker b = .ok r) :
    Js.fetchSolStakerStake rpc a = .ok ⟨a, Js.showSolStakerStake r⟩ := by
  unfold Js.fetchSolStakerStake
  rw [fetch_eq, h]
  dsimp only
  rw [C85_js_sol_staker hr]

private theorem fetch_isOk {P : List UInt8 → Prop} (hd : ∀ b, (decode b).isSome = true ↔ P b) :
    (∃ x, Js.fetch decode rpc a = .ok x) ↔ ∃ b, rpc a = some b ∧ P b := by
  rw [fetch_eq]
  cases h : rpc a with
  | none => simp
  | some b =>
    dsimp only
    cases hb : decode b with
    | none =>
      have : ¬ P b := fun hp => by have := (hd b).2 hp; rw [hb] at this; simp at this
      simp [this]
    | some r =>
      have : P b := (hd b).1 (by rw [hb]; rfl)
      simp [this]

/-- **C127.** Nothing but existence and length is checked: `fetchConfig` succeeds for every account of at least 192 bytes, of whatever
program and type, `fetchValidatorStake` for every account of at least 144, `fetchSolStakerStake` of at least 168. -/
theorem C127_no_type_check (rpc : Js.Rpc) (a : Key) :
    ((∃ x, Js.fetchConfig rpc a = .ok x) ↔ ∃ b, rpc a = some b ∧ 192 ≤ b.length) ∧
    ((∃ x, Js.fetchValidatorStake rpc a = .ok x) ↔ ∃ b, rpc a = some b ∧ 144 ≤ b.length) ∧
    ((∃ x, Js.fetchSolStakerStake rpc a = .ok x) ↔ ∃ b, rpc a = some b ∧ 168 ≤ b.length) := by
  refine ⟨fetch_isOk fun b => ?_, fetch_isOk fun b => ?_, fetch_isOk fun b => ?_⟩
  · rw [Js.decodeConfig_eq, Option.isSome_map]; exact C67_client_accepts_config
  · rw [Js.decodeValidatorStake_eq, Option.isSome_map]; exact C67_client_accepts_validator
  · rw [Js.decodeSolStakerStake_eq, Option.isSome_map]; exact C67_client_accepts_sol_staker

/-- **C127.** So a config fetched as a validator stake account comes back as one, without an error. -/
theorem C127_config_as_validator {r : RawConfig} (h : rpc a = some b) (hr : readConfig b = .ok r) :
    ∃ x, Js.fetchValidatorStake rpc a = .ok x := by
  have hl : b.length = 192 := by
    unfold readConfig at hr
    split at hr
    · assumption
    · simp at hr
  exact ((C127_no_type_check rpc a).2.1).2 ⟨b, h, by omega⟩

/-! ## Several accounts -/

private theorem mapM_ok {β γ : Type} {f : β → Except Js.FetchError γ} {l : List β} {xs : List γ} :
    l.mapM f = .ok xs ↔ List.Forall₂ (fun x y => f x = .ok y) l xs := by
  induction l generalizing xs with
  | nil =>
    simp only [List.mapM_nil, List.forall₂_nil_left_iff]
    constructor
    · intro h; cases h; rfl
    · rintro rfl; rfl
  | cons x l ih =>
    rw [List.mapM_cons]
    constructor
    · intro h
      cases hx : f x with
      | error e => rw [hx] at h; cases h
      | ok y =>
        rw [hx] at h
        cases hl : l.mapM f with
        | error e => rw [hl] at h; cases h
        | ok ys =>
          rw [hl] at h; cases h
          exact .cons hx (ih.1 hl)
    · intro h
      cases h with
      | cons hx hl => rw [hx, ih.2 hl]; rfl

private theorem assert_ok {ms : List (Js.MaybeAccount α)} {xs : List (Js.Account α)} :
    Js.assertAccountsExist ms = .ok xs ↔ List.Forall₂ (fun m x => m.address = x.address ∧ m.data = some x.data) ms xs := by
  induction ms generalizing xs with
  | nil =>
    unfold Js.assertAccountsExist
    simp only [List.filter_nil, if_true, List.filterMap_nil, Except.ok.injEq, List.forall₂_nil_left_iff]
    exact eq_comm
  | cons m ms ih =>
    obtain ⟨k, d⟩ := m
    cases d with
    | none =>
      unfold Js.assertAccountsExist
      simp only [List.filter_cons, Option.isNone_none, if_true]
      constructor
      · intro h; simp at h
      · intro h; cases h with | cons h _ => simp at h
    | some r =>
      have e : Js.assertAccountsExist (⟨k, some r⟩ :: ms) = (Js.assertAccountsExist ms).map (⟨k, r⟩ :: ·) := by
        unfold Js.assertAccountsExist
        simp only [List.filter_cons, Option.isNone_some, Bool.false_eq_true, if_false, List.filterMap_cons, Option.map_some]
        split_ifs <;> rfl
      rw [e]
      constructor
      · intro h
        cases hm : Js.assertAccountsExist ms with
        | error e => rw [hm] at h; simp [Except.map] at h
        | ok ys =>
          rw [hm] at h
          simp only [Except.map, Except.ok.injEq] at h
          subst h
          exact .cons ⟨rfl, rfl⟩ (ih.1 hm)
      · intro h
        cases h with
        | @cons _ x _ ys h hl =>
          rw [ih.2 hl]
          obtain ⟨x1, x2⟩ := x
          obtain ⟨h1, h2⟩ := h
          cases h1; cases h2
          rfl

private theorem fetch_all_of (decode : List UInt8 → Option α) (rpc : Js.Rpc) (as : List Key) (xs : List (Js.Account α)) :
    Js.fetchAll decode rpc as = .ok xs ↔ List.Forall₂ (fun a x => Js.fetch decode rpc a = .ok x) as xs := by
  have one : ∀ a x, Js.fetch decode rpc a = .ok x ↔ ∃ m : Js.MaybeAccount α,
      Js.decodeAccount decode (Js.fetchEncodedAccount rpc a) = .ok m ∧ m.address = x.address ∧ m.data = some x.data := by
    rintro a ⟨x1, x2⟩
    rw [fetch_eq]
    unfold Js.decodeAccount Js.fetchEncodedAccount
    dsimp only
    cases rpc a with
    | none =>
      constructor
      · intro h; simp at h
      · rintro ⟨m, h, _, h2⟩; cases h; simp at h2
    | some b =>
      dsimp only
      cases decode b with
      | none => simp
      | some r =>
        constructor
        · intro h; cases h; exact ⟨_, rfl, rfl, rfl⟩
        · rintro ⟨m, h, h1, h2⟩; cases h; cases h1; cases h2; rfl
  have all : Js.fetchAll decode rpc as = .ok xs ↔
      ∃ ms, Js.fetchAllMaybe decode rpc as = .ok ms ∧ Js.assertAccountsExist ms = .ok xs := by
    unfold Js.fetchAll
    cases Js.fetchAllMaybe decode rpc as with
    | error e => constructor
                 · intro h; cases h
                 · rintro ⟨_, h, _⟩; cases h
    | ok ms => constructor
               · intro h; exact ⟨ms, rfl, h⟩
               · rintro ⟨_, h, h'⟩; cases h; exact h'
  rw [all]
  clear all
  unfold Js.fetchAllMaybe
  simp only [mapM_ok, assert_ok, List.forall₂_map_left_iff]
  constructor
  · rintro ⟨ms, h1, h2⟩
    induction h1 generalizing xs with
    | nil => cases h2; exact .nil
    | cons h _ ih =>
      cases h2 with
      | cons h' h2 => exact .cons ((one _ _).2 ⟨_, h, h'⟩) (ih _ h2)
  · intro h
    induction h with
    | nil => exact ⟨[], .nil, .nil⟩
    | cons h _ ih =>
      obtain ⟨ms, h1, h2⟩ := ih
      obtain ⟨m, h3, h4⟩ := (one _ _).1 h
      exact ⟨m :: ms, .cons h3 h1, .cons h4 h2⟩

private theorem missing_of (decode : List UInt8 → Option α) (rpc : Js.Rpc) (as : List Key)
    (hd : ∀ a ∈ as, ∀ b, rpc a = some b → (decode b).isSome = true) (hm : ∃ a ∈ as, rpc a = none) :
    Js.fetchAll decode rpc as = .error (.accountsNotFound (as.filter fun a => (rpc a).isNone)) := by
  have key : ∀ as : List Key, (∀ a ∈ as, ∀ b, rpc a = some b → (decode b).isSome = true) →
      ∃ ms, Js.fetchAllMaybe decode rpc as = .ok ms ∧
        (ms.filter fun m => m.data.isNone).map (·.address) = as.filter fun a => (rpc a).isNone := by
    intro as
    induction as with
    | nil => intro _; exact ⟨[], rfl, rfl⟩
    | cons a as ih =>
      intro hd
      obtain ⟨ms, h1, h2⟩ := ih fun x hx => hd x (by simp [hx])
      unfold Js.fetchAllMaybe at h1 ⊢
      rw [mapM_ok] at h1
      cases hr : rpc a with
      | none =>
        refine ⟨⟨a, none⟩ :: ms, mapM_ok.2 (.cons ?_ h1), by simp [hr, h2]⟩
        simp [Js.decodeAccount, Js.fetchEncodedAccount, hr]
      | some b =>
        obtain ⟨r, hb⟩ := Option.isSome_iff_exists.1 (hd a (by simp) b hr)
        refine ⟨⟨a, some r⟩ :: ms, mapM_ok.2 (.cons ?_ h1), by simp [hr, h2]⟩
        simp [Js.decodeAccount, Js.fetchEncodedAccount, hr, hb]
  obtain ⟨ms, h1, h2⟩ := key as hd
  unfold Js.fetchAll
  rw [h1]
  show Js.assertAccountsExist ms = _
  unfold Js.assertAccountsExist
  rw [if_neg, h2]
  intro h
  rw [h, List.map_nil] at h2
  obtain ⟨a, ha, hr⟩ := hm
  have : a ∈ as.filter fun a => (rpc a).isNone := List.mem_filter.2 ⟨ha, by rw [hr]; rfl⟩
  rw [← h2] at this
  simp at this

/-- **C127.** Fetching many accounts at once succeeds exactly when fetching each alone does, and gives the same accounts in the same
order. -/
theorem C127_fetch_all (rpc : Js.Rpc) (as : List Key) :
    (∀ xs, Js.fetchAllConfig rpc as = .ok xs ↔ List.Forall₂ (fun a x => Js.fetchConfig rpc a = .ok x) as xs) ∧
    (∀ xs, Js.fetchAllValidatorStake rpc as = .ok xs ↔ List.Forall₂ (fun a x => Js.fetchValidatorStake rpc a = .ok x) as xs) ∧
    (∀ xs, Js.fetchAllSolStakerStake rpc as = .ok xs ↔ List.Forall₂ (fun a x => Js.fetchSolStakerStake rpc a = .ok x) as xs) :=
  ⟨fetch_all_of _ rpc as, fetch_all_of _ rpc as, fetch_all_of _ rpc as⟩

/-- **C127.** If all accounts that exist are long enough and some do not exist, the error names exactly those that do not exist. -/
theorem C127_missing_are_named (rpc : Js.Rpc) (as : List Key) (hm : ∃ a ∈ as, rpc a = none) :
    ((∀ a ∈ as, ∀ b, rpc a = some b → 192 ≤ b.length) →
      Js.fetchAllConfig rpc as = .error (.accountsNotFound (as.filter fun a => (rpc a).isNone))) ∧
    ((∀ a ∈ as, ∀ b, rpc a = some b → 144 ≤ b.length) →
      Js.fetchAllValidatorStake rpc as = .error (.accountsNotFound (as.filter fun a => (rpc a).isNone))) ∧
    ((∀ a ∈ as, ∀ b, rpc a = some b → 168 ≤ b.length) →
      Js.fetchAllSolStakerStake rpc as = .error (.accountsNotFound (as.filter fun a => (rpc a).isNone))) := by
  refine ⟨fun h => missing_of _ rpc as (fun a ha b hb => ?_) hm, fun h => missing_of _ rpc as (fun a ha b hb => ?_) hm,
    fun h => missing_of _ rpc as (fun a ha b hb => ?_) hm⟩
  · rw [Js.decodeConfig_eq, Option.isSome_map]; exact C67_client_accepts_config.2 (h a ha b hb)
  · rw [Js.decodeValidatorStake_eq, Option.isSome_map]; exact C67_client_accepts_validator.2 (h a ha b hb)
  · rw [Js.decodeSolStakerStake_eq, Option.isSome_map]; exact C67_client_accepts_sol_staker.2 (h a ha b hb)

private theorem refuse_of (hd : decode b = none) (h : rpc a = some b) : Js.fetch decode rpc a = .error (.failedToDecode a) := by
  rw [fetch_eq, h]
  dsimp only
  rw [hd]

private theorem refuse_missing (h : rpc a = none) : Js.fetch decode rpc a = .error (.accountNotFound a) := by
  rw [fetch_eq, h]

private theorem none_of {x : Option α} {P : Prop} (h : x.isSome = true ↔ P) (hp : ¬ P) : x = none := by
  cases x with
  | none => rfl
  | some r => exact absurd (h.1 rfl) hp

/-- **C127.** A single account that is refused is named in the error, which tells whether it does not exist or is too short. -/
theorem C127_refused_is_named (rpc : Js.Rpc) (a : Key) :
    (rpc a = none → Js.fetchConfig rpc a = .error (.accountNotFound a) ∧
      Js.fetchValidatorStake rpc a = .error (.accountNotFound a) ∧ Js.fetchSolStakerStake rpc a = .error (.accountNotFound a)) ∧
    (∀ b, rpc a = some b → (b.length < 192 → Js.fetchConfig rpc a = .error (.failedToDecode a)) ∧
      (b.length < 144 → Js.fetchValidatorStake rpc a = .error (.failedToDecode a)) ∧
      (b.length < 168 → Js.fetchSolStakerStake rpc a = .error (.failedToDecode a))) := by
  refine ⟨fun h => ⟨refuse_missing h, refuse_missing h, refuse_missing h⟩, fun b h =>
    ⟨fun hl => refuse_of ?_ h, fun hl => refuse_of ?_ h, fun hl => refuse_of ?_ h⟩⟩
  · rw [Js.decodeConfig_eq, Option.map_eq_none_iff]; exact none_of C67_client_accepts_config (by omega)
  · rw [Js.decodeValidatorStake_eq, Option.map_eq_none_iff]; exact none_of C67_client_accepts_validator (by omega)
  · rw [Js.decodeSolStakerStake_eq, Option.map_eq_none_iff]; exact none_of C67_client_accepts_sol_staker (by omega)

/-! A node that has one config, at address 1. -/

def oneConfig : Js.Rpc := fun k => if k = .raw 1 then some noSlash.write else none

example : Js.fetchConfig oneConfig (.raw 1) = .ok ⟨.raw 1, Js.showConfig noSlash⟩ ∧
    (∃ x, Js.fetchValidatorStake oneConfig (.raw 1) = .ok x) :=
  ⟨C127_fetch_config (by simp [oneConfig]) noSlash_read, C127_config_as_validator (by simp [oneConfig]) noSlash_read⟩

example : Js.fetchAllConfig oneConfig [.raw 1, .raw 1] =
    .ok [⟨.raw 1, Js.showConfig noSlash⟩, ⟨.raw 1, Js.showConfig noSlash⟩] := by
  have h : Js.fetchConfig oneConfig (.raw 1) = .ok ⟨.raw 1, Js.showConfig noSlash⟩ :=
    C127_fetch_config (by simp [oneConfig]) noSlash_read
  exact ((C127_fetch_all _ _).1 _).2 (.cons h (.cons h .nil))

example : Js.fetchAllConfig oneConfig [.raw 2, .raw 1, .raw 3] = .error (.accountsNotFound [.raw 2, .raw 3]) := by
  rw [(C127_missing_are_named oneConfig _ ⟨.raw 2, by simp, by simp [oneConfig]⟩).1]
  · rfl
  · intro a _ b hb
    simp only [oneConfig] at hb
    split_ifs at hb
    cases hb
    exact C67_client_accepts_config.1 (by rw [← Option.isSome_map, ← Js.decodeConfig_eq, C85_js_config noSlash_read]; rfl)

end Verif.Props
