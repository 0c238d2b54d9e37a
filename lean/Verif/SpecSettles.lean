import Verif.Spec
/-!
# Vocabulary of C108: lamports that reach a config nobody has stake in
-/

namespace Verif

/-- The instructions that count the lamports which have arrived on the config since the last count: all but those that set up or
configure something (the documentation of the instructions is at `/repo/program/src/instruction.rs` 12-798). -/
def StakeInstruction.settles : StakeInstruction → Bool
  | .initializeConfig .. | .initializeValidatorStake | .initializeSolStakerStake | .setAuthority .. | .updateConfig ..
  | .validatorSyncAuthority => false
  | _ => true

def Ix.settles (ix : Ix) : Bool :=
  match ix.decoded with
  | some i => i.settles
  | none => false

/-- The lamports that have arrived on the config since the last count, if the config has no effective stake; otherwise nothing. -/
def idle (w : World) (ck : Key) : Nat :=
  match configAt w ck with
  | some c => if c.effTotal = 0 then (w ck).lamports - c.lamportsLast else 0
  | none => 0

/-- The lamports that an instruction counts while the config has no effective stake. -/
def stranded (ck : Key) (w : World) (ix : Ix) : Nat :=
  if ix.settles ∧ ix.config = some ck then idle w ck else 0

end Verif
