import Verif.SpecBook
/-!
# Vocabulary of C129: a journal of the instructions on a config
-/

namespace Verif

/-- What an observer writes down about an instruction that has succeeded: who has signed, the time, and what was asked for. -/
structure Line where
  signed : Key → Bool
  now : Nat
  op : Book.Op

/-- The book that a journal leads to, by the rules of the machine. -/
def Book.replay (B : Book) : List Line → Option Book
  | [] => some B
  | l :: ls => do
      let B' ← B.apply l.signed l.now l.op
      B'.replay ls

/-- The journal of the config at `ck`, in a history that ends in `w`: one line for each successful instruction on the config.
Instructions on other configs and what other programs do are not written down. -/
inductive Journal (env : Env) (ck : Key) : World → List Line → Prop
  | genesis {w : World} : Genesis w → Journal env ck w []
  | ext {w w' : World} {J : List Line} : Journal env ck w J → ExtStep w w' → Journal env ck w' J
  | elsewhere {o : Oracle} {w w' : World} {ix : Ix} {J : List Line} : Journal env ck w J → o.Ok → exec env o w ix = .ok w' →
      ix.config ≠ some ck → Journal env ck w' J
  | line {o : Oracle} {w w' : World} {ix : Ix} {J : List Line} {op : Book.Op} : Journal env ck w J → o.Ok →
      exec env o w ix = .ok w' → ix.config = some ck → asksFor env o w ix ck op →
      Journal env ck w' (J ++ [⟨ix.ctx.signer, o.now, op⟩])

end Verif
