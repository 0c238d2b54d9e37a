import Verif.Model.Js
/-!
# The fetch functions of the JavaScript client

`clients/js/src/generated/accounts/config.ts` 125-176, `validatorStake.ts` 81-140, `solStakerStake.ts` 83-142. They call
`fetchEncodedAccount(s)`, `decodeAccount` and `assertAccount(s)Exist` of `@solana/web3.js`, which is not in the repository; what
these do is modelled as documented there: an account that does not exist is passed on as such, a decoder that throws becomes an
error that names the address, and the assertions throw for accounts that do not exist.

Simplifications: the answer of the node is a function of the address, one for each call, so that one call sees one state; failures
of the node or the network, the options of the call and the fields of an account other than its data are left out.
-/

namespace Verif.Client.Js

/-- What a node answers: the data of the accounts that exist. -/
abbrev Rpc := Key → Option (List UInt8)

/-- An account that may not exist. -/
structure MaybeAccount (α : Type) where
  address : Key
  data : Option α

/-- An account that exists. -/
structure Account (α : Type) where
  address : Key
  data : α

inductive FetchError where
  | failedToDecode (a : Key)
  | accountNotFound (a : Key)
  | accountsNotFound (as : List Key)
  deriving DecidableEq

/-- `fetchEncodedAccount`. -/
def fetchEncodedAccount (rpc : Rpc) (a : Key) : MaybeAccount (List UInt8) := ⟨a, rpc a⟩

/-- `decodeAccount`, as used by `decodeConfig` (`config.ts` 125-138), `decodeValidatorStake` and `decodeSolStakerStake`. -/
def decodeAccount {α : Type} (decode : List UInt8 → Option α) (m : MaybeAccount (List UInt8)) :
    Except FetchError (MaybeAccount α) :=
  match m.data with
  | none => .ok ⟨m.address, none⟩
  | some b =>
    match decode b with
    | some r => .ok ⟨m.address, some r⟩
    | none => .error (.failedToDecode m.address)

/-- `assertAccountExists`. -/
def assertAccountExists {α : Type} (m : MaybeAccount α) : Except FetchError (Account α) :=
  match m.data with
  | some r => .ok ⟨m.address, r⟩
  | none => .error (.accountNotFound m.address)

/-- `assertAccountsExist`: collects the missing addresses and throws if there are any. -/
def assertAccountsExist {α : Type} (ms : List (MaybeAccount α)) : Except FetchError (List (Account α)) :=
  let missing := ms.filter fun m => m.data.isNone
  if missing = [] then .ok (ms.filterMap fun m => m.data.map fun r => ⟨m.address, r⟩)
  else .error (.accountsNotFound (missing.map (·.address)))

/-- `fetchMaybeConfig` (`config.ts` 150-157) and its likes. -/
def fetchMaybe {α : Type} (decode : List UInt8 → Option α) (rpc : Rpc) (a : Key) : Except FetchError (MaybeAccount α) :=
  decodeAccount decode (fetchEncodedAccount rpc a)

/-- `fetchConfig` (`config.ts` 140-148) and its likes. -/
def fetch {α : Type} (decode : List UInt8 → Option α) (rpc : Rpc) (a : Key) : Except FetchError (Account α) := do
  let m ← fetchMaybe decode rpc a
  assertAccountExists m

/-- `fetchAllMaybeConfig` (`config.ts` 169-176) and its likes. -/
def fetchAllMaybe {α : Type} (decode : List UInt8 → Option α) (rpc : Rpc) (as : List Key) :
    Except FetchError (List (MaybeAccount α)) :=
  (as.map (fetchEncodedAccount rpc)).mapM (decodeAccount decode)

/-- `fetchAllConfig` (`config.ts` 159-167) and its likes. -/
def fetchAll {α : Type} (decode : List UInt8 → Option α) (rpc : Rpc) (as : List Key) :
    Except FetchError (List (Account α)) := do
  let ms ← fetchAllMaybe decode rpc as
  assertAccountsExist ms

def fetchConfig : Rpc → Key → Except FetchError (Account Config) := fetch decodeConfig
def fetchValidatorStake : Rpc → Key → Except FetchError (Account ValidatorStake) := fetch decodeValidatorStake
def fetchSolStakerStake : Rpc → Key → Except FetchError (Account SolStakerStake) := fetch decodeSolStakerStake
def fetchAllConfig : Rpc → List Key → Except FetchError (List (Account Config)) := fetchAll decodeConfig
def fetchAllValidatorStake : Rpc → List Key → Except FetchError (List (Account ValidatorStake)) := fetchAll decodeValidatorStake
def fetchAllSolStakerStake : Rpc → List Key → Except FetchError (List (Account SolStakerStake)) := fetchAll decodeSolStakerStake

end Verif.Client.Js
