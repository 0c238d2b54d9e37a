import Verif.Model.Pda
/-!
# Derived addresses

C68 and C69. The rest of the model takes it as given that addresses derived for different purposes, or from different
seeds, are different. Here that is reduced to the absence of SHA-256 collisions, for the seeds of the source code.
-/

namespace Verif.Props

open Verif Verif.Pda

/-- What a derived address stands for. -/
inductive Role where
  | vaultAuthority (config : Bytes)
  | config
  | solStaker (nativeStake config : Bytes)
  | authorityOverride (authority config : Bytes)
  | validator (vote config : Bytes)
  | dunaDocument (signer hash : Bytes)
  deriving DecidableEq

/-- Keys and hashes have 32 bytes. -/
def Role.Sized : Role → Prop
  | .vaultAuthority a => a.length = 32
  | .config => True
  | .solStaker a b | .authorityOverride a b | .validator a b | .dunaDocument a b => a.length = 32 ∧ b.length = 32

/-- The seeds in a table of their own, without the bump. -/
def Role.seeds : Role → List Bytes
  | .vaultAuthority c => [str "token-owner", c]
  | .config => [str "config"]
  | .solStaker s c => [str "sol_staker_stake", s, c]
  | .authorityOverride a c => [str "sol_staker_authority_override", a, c]
  | .validator v c => [str "validator_stake", v, c]
  | .dunaDocument s d => [str "consitution", s, d]

/-- The address the program derives. -/
def Role.address (x : Crypto) (prog duna : Bytes) : Role → Option (Bytes × Nat)
  | .vaultAuthority c => findVaultPda x c prog
  | .config => findConfigPda x prog
  | .solStaker s c => findSolStakerStakePda x s c prog
  | .authorityOverride a c => findSolStakerAuthorityOverridePda x a c prog
  | .validator v c => findValidatorStakePda x v c prog
  | .dunaDocument s h => findDunaDocumentPda x s h duna

/-- The program an address belongs to. -/
def Role.program (prog duna : Bytes) : Role → Bytes
  | .dunaDocument _ _ => duna
  | _ => prog

/-- The bytes hashed for a role with a bump, as one string. -/
def Role.hashed (prog duna : Bytes) (r : Role) (bump : Nat) : Bytes :=
  r.seeds.flatten ++ [UInt8.ofNat bump] ++ r.program prog duna ++ str "ProgramDerivedAddress"

/-- `y` and `z` are a SHA-256 collision. (That some collision exists is certain, by counting. So theorems below name the two
inputs that would collide.) -/
def Collision (x : Crypto) (y z : Bytes) : Prop := y ≠ z ∧ x.sha256 y = x.sha256 z

theorem tryFrom_some {x : Crypto} {seeds : List Bytes} {p : Bytes} {n : Nat} {a : Bytes} {b : Nat}
    (h : tryFrom x seeds p n = some (a, b)) :
    1 ≤ b ∧ b ≤ n ∧ createProgramAddress x (seeds ++ [[UInt8.ofNat b]]) p = .ok a ∧
      ∀ c, b < c → c ≤ n → createProgramAddress x (seeds ++ [[UInt8.ofNat c]]) p = .error .invalidSeeds := by
  induction n with
  | zero => simp [tryFrom] at h
  | succ n ih =>
    unfold tryFrom at h
    split at h
    · rename_i a' ha
      cases h
      exact ⟨by omega, by omega, ha, fun c h1 h2 => by omega⟩
    · rename_i he
      obtain ⟨h1, h2, h3, h4⟩ := ih h
      refine ⟨h1, by omega, h3, fun c hc hn => ?_⟩
      by_cases e : c = n + 1
      · subst e; exact he
      · exact h4 c hc (by omega)
    · cases h

theorem create_hash {x : Crypto} {seeds : List Bytes} {p a : Bytes} (h : createProgramAddress x seeds p = .ok a) :
    x.sha256 (preimage seeds p) = a := by
  unfold createProgramAddress at h
  simp only at h
  split at h
  · cases h
  · split at h
    · cases h
    · exact Except.ok.inj h

theorem find_hash {x : Crypto} {seeds : List Bytes} {p a : Bytes} {b : Nat}
    (h : findProgramAddress x seeds p = some (a, b)) :
    x.sha256 (preimage (seeds ++ [[UInt8.ofNat b]]) p) = a :=
  create_hash (tryFrom_some h).2.2.1

theorem seeds_eq_of_preimage_eq {s t : List Bytes} {p q : Bytes} (hp : p.length = 32) (hq : q.length = 32)
    (h : preimage s p = preimage t q) : s.flatten = t.flatten ∧ p = q := by
  unfold preimage at h
  exact List.append_inj' (List.append_cancel_right h) (by rw [hp, hq])

theorem tryFrom_none {x : Crypto} {seeds : List Bytes} {p : Bytes} {n : Nat}
    (hs : seeds.length < 16 ∧ ∀ s ∈ seeds, s.length ≤ 32) (h : tryFrom x seeds p n = none) {b : Nat} (h1 : 1 ≤ b)
    (h2 : b ≤ n) : x.onCurve (x.sha256 (preimage (seeds ++ [[UInt8.ofNat b]]) p)) = true := by
  have hc : ∀ c : UInt8, createProgramAddress x (seeds ++ [[c]]) p =
      if x.onCurve (x.sha256 (preimage (seeds ++ [[c]]) p)) then .error .invalidSeeds
      else .ok (x.sha256 (preimage (seeds ++ [[c]]) p)) := by
    intro c
    unfold createProgramAddress
    rw [if_neg]
    rintro (e | ⟨s, hm, e⟩)
    · simp only [List.length_append, List.length_cons, List.length_nil] at e; omega
    · rcases List.mem_append.1 hm with hm | hm
      · have := hs.2 s hm
        omega
      · simp only [List.mem_cons, List.not_mem_nil, or_false] at hm
        subst hm
        simp at e
  induction n with
  | zero => omega
  | succ n ih =>
    unfold tryFrom at h
    rw [hc] at h
    by_cases e : b = n + 1
    · subst e
      cases hb : x.onCurve (x.sha256 (preimage (seeds ++ [[UInt8.ofNat (n + 1)]]) p))
      · rw [hb, if_neg Bool.false_ne_true] at h
        cases h
      · rfl
    · split at h
      · cases h
      · exact ih h (by omega)
      · rename_i he
        split at he <;> cases he

theorem address_find (x : Crypto) (prog duna : Bytes) (r : Role) :
    r.address x prog duna = findProgramAddress x r.seeds (r.program prog duna) := by
  cases r <;> rfl

theorem hashed_eq (prog duna : Bytes) (r : Role) (b : Nat) :
    r.hashed prog duna b = preimage (r.seeds ++ [[UInt8.ofNat b]]) (r.program prog duna) := by
  simp [Role.hashed, preimage]

theorem len_token : (str "token-owner").length = 11 := by decide
theorem len_config : (str "config").length = 6 := by decide
theorem len_sol : (str "sol_staker_stake").length = 16 := by decide
theorem len_over : (str "sol_staker_authority_override").length = 29 := by decide
theorem len_val : (str "validator_stake").length = 15 := by decide
theorem len_duna : (str "consitution").length = 11 := by decide

/-- **C68.** Two derived addresses of the program are equal only if they stand for the same thing, or the two strings that
were hashed are a SHA-256 collision: seeds are hashed without separators, but no two of the seed schemas can produce the same
input, whatever the keys in them, the bumps and the two program ids. -/
theorem C68_addresses_distinct (x : Crypto) {prog duna : Bytes} (hp : prog.length = 32) (hd : duna.length = 32)
    {r s : Role} (hr : r.Sized) (hs : s.Sized) {a : Bytes} {b c : Nat}
    (h : r.address x prog duna = some (a, b)) (h' : s.address x prog duna = some (a, c)) :
    r = s ∨ Collision x (r.hashed prog duna b) (s.hashed prog duna c) := by
  have e := find_hash ((address_find x prog duna r).symm.trans h)
  have e' := find_hash ((address_find x prog duna s).symm.trans h')
  rw [← hashed_eq] at e e'
  by_cases hne : r.hashed prog duna b = s.hashed prog duna c
  · left
    have lp : (r.program prog duna).length = 32 := by cases r <;> assumption
    have lq : (s.program prog duna).length = 32 := by cases s <;> assumption
    rw [hashed_eq, hashed_eq] at hne
    have hf := (seeds_eq_of_preimage_eq lp lq hne).1
    have hlen := congrArg List.length hf
    cases r <;> cases s <;> simp only [Role.Sized] at hr hs <;>
      simp only [Role.seeds, List.flatten_cons, List.flatten_nil, List.cons_append, List.nil_append, List.append_nil,
        List.length_append, List.length_cons, List.length_nil, len_token, len_config, len_sol, len_over, len_val,
        len_duna] at hlen <;> first | rfl | omega | skip
    all_goals
      simp only [Role.seeds, List.flatten_cons, List.flatten_nil, List.cons_append, List.nil_append, List.append_nil] at hf
      have hf := List.append_cancel_left hf
    · have := (List.append_inj hf (by omega)).1
      rw [this]
    all_goals
      obtain ⟨h1, h2⟩ := List.append_inj hf (by omega)
      have h3 := (List.append_inj h2 (by omega)).1
      rw [h1, h3]
  · exact Or.inr ⟨hne, e.trans e'.symm⟩

/-- With an injective hash function (here: the identity) the addresses are simply distinct. -/
example : ∃ x : Crypto, (∀ y z, ¬ Collision x y z) ∧ (Role.validator (List.replicate 32 1) (List.replicate 32 2)).Sized ∧
    ((Role.validator (List.replicate 32 1) (List.replicate 32 2)).address x (List.replicate 32 3) (List.replicate 32 4)).isSome :=
  ⟨⟨id, fun _ => false⟩, fun _ _ h => h.1 h.2, ⟨rfl, rfl⟩, by decide⟩

/-- **C68.** The vault authority found by the program is re-created from the stored bump by `create_vault_pda` and from the
signer seeds, and it is the canonical one: every larger bump is invalid. -/
theorem C68_vault_bump_canonical (x : Crypto) {config prog a : Bytes} {b : Nat}
    (h : findVaultPda x config prog = some (a, b)) :
    1 ≤ b ∧ b ≤ 255 ∧ createVaultPda x config [UInt8.ofNat b] prog = .ok a ∧
      ∀ c, b < c → c ≤ 255 → createVaultPda x config [UInt8.ofNat c] prog = .error .invalidSeeds := by
  obtain ⟨h1, h2, h3, h4⟩ := tryFrom_some h
  exact ⟨h1, h2, h3, h4⟩

/-- **C68.** The signer seeds with which the program signs for a new stake account give the address that was checked. -/
theorem C68_signer_seeds (x : Crypto) {k config prog a : Bytes} {b : Nat} :
    (findValidatorStakePda x k config prog = some (a, b) →
      createProgramAddress x (getValidatorStakePdaSignerSeeds k config [UInt8.ofNat b]) prog = .ok a) ∧
    (findSolStakerStakePda x k config prog = some (a, b) →
      createProgramAddress x (getSolStakerStakePdaSignerSeeds k config [UInt8.ofNat b]) prog = .ok a) :=
  ⟨fun h => (tryFrom_some h).2.2.1, fun h => (tryFrom_some h).2.2.1⟩

/-- **C68.** No seed is too long, so the derivation fails (a panic) only if each of the 255 candidates is on the curve. -/
theorem C68_derivation_total (x : Crypto) {prog duna : Bytes} {r : Role} (hr : r.Sized)
    (h : r.address x prog duna = none) {b : Nat} (h1 : 1 ≤ b) (h2 : b ≤ 255) :
    x.onCurve (x.sha256 (r.hashed prog duna b)) = true := by
  have hs : r.seeds.length < 16 ∧ ∀ s ∈ r.seeds, s.length ≤ 32 := by
    cases r <;> simp only [Role.Sized] at hr <;>
      simp [Role.seeds, len_token, len_config, len_sol, len_over, len_val, len_duna, *]
  rw [hashed_eq]
  exact tryFrom_none hs ((address_find x prog duna r).symm.trans h) h1 h2

example : ∃ a b, findVaultPda ⟨id, fun _ => false⟩ (List.replicate 32 1) (List.replicate 32 2) = some (a, b) ∧ b = 255 :=
  ⟨_, _, rfl, rfl⟩

/-- **C69.** The Rust client derives the addresses the program derives. -/
theorem C69_rust_client_addresses (x : Crypto) (prog k config : Bytes) :
    RustClient.findVaultPda x prog config = findVaultPda x config prog ∧
    RustClient.findSolStakerStakePda x prog k config = findSolStakerStakePda x k config prog ∧
    RustClient.findSolStakerAuthorityOverridePda x prog k config = findSolStakerAuthorityOverridePda x k config prog ∧
    RustClient.findValidatorStakePda x prog k config = findValidatorStakePda x k config prog :=
  ⟨rfl, rfl, rfl, rfl⟩

/-- **C69.** The JavaScript client's `findVaultPda` never finds the vault authority of any config, whatever address it is
given, except by a collision of the two strings hashed: its constant seed is `token-vault`, that of the program `token-owner`. -/
theorem C69_js_vault_address_wrong (x : Crypto) {prog k config a a' : Bytes} {b c : Nat} (hp : prog.length = 32)
    (h : JsClient.findVaultPda x prog k = some (a, b)) (h' : findVaultPda x config prog = some (a', c)) :
    a ≠ a' ∨ Collision x
      (str "token-vault" ++ k ++ [UInt8.ofNat b] ++ prog ++ str "ProgramDerivedAddress")
      ((Role.vaultAuthority config).hashed prog prog c) := by
  by_cases e : a = a'
  · right
    subst e
    have e1 : str "token-vault" ++ k ++ [UInt8.ofNat b] ++ prog ++ str "ProgramDerivedAddress" =
        preimage ([str "token-vault", k] ++ [[UInt8.ofNat b]]) prog := by simp [preimage]
    rw [e1, hashed_eq]
    refine ⟨?_, (find_hash h).trans (find_hash h').symm⟩
    intro hne
    have hf := (seeds_eq_of_preimage_eq hp hp hne).1
    simp only [List.flatten_cons, List.cons_append, List.nil_append] at hf
    have := (List.append_inj hf (by decide)).1
    exact absurd this (by decide)
  · exact Or.inl e

example : ∃ x : Crypto, (∀ y z, ¬ Collision x y z) ∧ (JsClient.findVaultPda x (List.replicate 32 3) (List.replicate 32 1)).isSome ∧
    (findVaultPda x (List.replicate 32 1) (List.replicate 32 3)).isSome :=
  ⟨⟨id, fun _ => false⟩, fun _ _ h => h.1 h.2, by decide, by decide⟩

end Verif.Props
