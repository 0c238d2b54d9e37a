import Verif.Props.Exactly
import Verif.Props.Effects
/-!
# C109: whoever comes first sets up the config
-/

namespace Verif.Props

open Verif Verif.Witness

variable {env : Env} {o o' : Oracle} {w w' : World} {ix ix' : Ix}

/-- **C109.** Whenever somebody can initialise a config, anybody can do it instead, with the same accounts, without any signature and with
authorities and settings of their own choice (the limit for unstaking being at most 10000 basis points). The config then has these
authorities, and the initialisation that was intended is never accepted again, whatever happens. -/
theorem C109_first_come (R : Reachable env w) (h : exec env o w ix = .ok w') {sa ca hash : List UInt8} {ct bps sync : Nat}
    (hi : ix.decoded = some (.initializeConfig sa ca ct bps sync hash)) {ck mk va vault hk : Key} {rest : List Key}
    (hl : ix.ctx.accts = ck :: mk :: va :: vault :: hk :: systemId :: rewardsId :: rest) (hw : ix.Writes [ck, va])
    {sa' ca' hash' : List UInt8} {ct' bps' sync' : Nat}
    (hi' : ix'.decoded = some (.initializeConfig sa' ca' ct' bps' sync' hash'))
    (hb : bps' ≤ 10000) {rest' : List Key} (ha : ix'.ctx.accts = ck :: mk :: va :: vault :: hk :: systemId :: rewardsId :: rest')
    (hw' : ix'.Writes [ck, va]) (O : o'.Ok) :
    ∃ w1 c, exec env o' w ix' = .ok w1 ∧ configAt w1 ck = some c ∧ c.authority = env.keyOfBytes ca' ∧
      c.slashAuthority = env.keyOfBytes sa' ∧ c.maxBps = bps' ∧
      ∀ w2, Steps env w1 w2 → ∀ o2 w3, exec env o2 w2 ix ≠ .ok w3 := by
  obtain ⟨e1, e2, _, h1, h2⟩ := (C102_initialize_config R hi hl hw).1 ⟨w', h⟩
  obtain ⟨w1, hx⟩ := (C102_initialize_config (o := o') R hi' ha hw').2 ⟨e1, e2, hb, h1, h2⟩
  obtain ⟨_, hd, _, _⟩ := C105_initialize_config hx hi' ha
  have hO1 : (w1 ck).owner = progId := by rw [hd]; exact h1
  have hc := configAt_eq.2 ⟨hO1, (congrArg Account.data hd)⟩
  refine ⟨w1, _, hx, hc, rfl, rfl, rfl, fun w2 S o2 w3 h3 => ?_⟩
  have R1 : Reachable env w1 := .exec R O hx
  obtain ⟨c2, hc2⟩ := C25_config_permanent R1 S hc
  obtain ⟨_, _, _, _, _, _, ⟨b, hbytes, _⟩, _⟩ := (C102_initialize_config (steps_reachable R1 S) hi hl hw).1 ⟨w3, h3⟩
  rw [(configAt_eq.1 hc2).2] at hbytes
  cases hbytes

/-- The config of the example, initialised by somebody else, with account 171 as authority and account 172 as slashing authority. -/
def ixInitThief : Ix :=
  Witness.ix (.initializeConfig (bytes32 172) (bytes32 171) 1000000 0 10 Witness.hash)
    [cfg, mint, vaultAuth, vault, holder, systemId, rewardsId] []

/-- Nobody signs, and the intended authorities are 151 and 150. -/
example : (∃ w', exec Witness.env o1 w0 ixInitConfig = .ok w') ∧
    ixInitConfig.decoded = some (.initializeConfig (bytes32 151) (bytes32 150) 100 5000 10 Witness.hash) ∧
    ixInitConfig.ctx.accts = cfg :: mint :: vaultAuth :: vault :: holder :: systemId :: rewardsId :: [] ∧
    ixInitThief.decoded = some (.initializeConfig (bytes32 172) (bytes32 171) 1000000 0 10 Witness.hash) ∧
    ixInitThief.ctx.accts = cfg :: mint :: vaultAuth :: vault :: holder :: systemId :: rewardsId :: [] ∧
    (∀ k ∈ ixInitThief.ctx.accts, ixInitThief.ctx.signer k = false) ∧
    okB o1 w0 ixInitThief = true ∧ errOf o1 (after o1 w0 ixInitThief) ixInitConfig = some .accountAlreadyInitialized :=
  ⟨⟨_, ok_after ok0⟩, by decide +kernel, rfl, by decide +kernel, rfl, by decide +kernel, by decide +kernel, by decide +kernel⟩

end Verif.Props
