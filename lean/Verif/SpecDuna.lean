import Verif.Spec
/-!
# Consent to the governing document

A config carries the hash of a document. Somebody has signed it when the document account derived from their key and the hash
starts with a byte one; that account belongs to another program, which may change it at any time.
-/

namespace Verif

/-- `party` has signed the document with this hash, as things stand in `w`. -/
def SignedDoc (w : World) (party : Key) (hash : List UInt8) : Prop :=
  ∃ b, (w (.dunaPda party hash)).data = .bytes (1 :: b)

/-- Worlds that are reached without `party` having signed the document at any time on the way. -/
inductive NeverSigned (env : Env) (party : Key) (hash : List UInt8) : World → Prop
  | genesis {w} : Genesis w → ¬ SignedDoc w party hash → NeverSigned env party hash w
  | step {w w'} : NeverSigned env party hash w → Step env w w' → ¬ SignedDoc w' party hash → NeverSigned env party hash w'

/-- Somebody has `s` synced between `w` and `w'`, at a moment at which `party` is the withdraw authority of the vote account
of `s`, and the chain goes on from there to `w'`. -/
def SyncedTo (env : Env) (s party : Key) (w w' : World) : Prop :=
  ∃ o ix w1 vote ck, o.Ok ∧ exec env o w ix = .ok w1 ∧ Steps env w1 w' ∧ ix.decoded = some .validatorSyncAuthority ∧
    s = .validatorPda vote ck ∧ ix.acct 1 = some s ∧ (w vote).owner = voteId ∧ (w vote).data = .vote party

end Verif
