import Verif.Model.Basic
import Verif.Model.Arith
import Verif.Model.Shared
import Verif.Model.Instr
import Verif.Model.Codec
import Verif.Model.Exec
import Verif.Spec
import Verif.Lemmas.Monad
import Verif.Lemmas.Harvest
import Verif.Lemmas.Sum
import Verif.Lemmas.Inv
import Verif.Lemmas.Micro
import Verif.Lemmas.Token
import Verif.Lemmas.Handlers
import Verif.Lemmas.Preserve
import Verif.Lemmas.Dispatch
import Verif.Lemmas.State
import Verif.Lemmas.Change
import Verif.Lemmas.Invert
import Verif.Contract
import Verif.Witness
import Verif.WitnessContract
import Verif.Props.State
import Verif.Props.Authority
import Verif.Lemmas.Foreign
import Verif.Lemmas.Totals
import Verif.Props.Unstake
import Verif.Props.History
import Verif.Props.Effective
import Verif.Lemmas.Cover
import Verif.Lemmas.Balance
import Verif.Lemmas.Debit
import Verif.Lemmas.Record
import Verif.Lemmas.Solvency
import Verif.WitnessSettle
import Verif.WitnessHistory
import Verif.WitnessKeeper
import Verif.Props.Solvency
import Verif.WitnessTwo
import Verif.Props.Isolation
import Verif.Model.Layout
import Verif.Lemmas.Codec
import Verif.Props.Codec
import Verif.Props.Layout
import Verif.Lemmas.Reward
import Verif.Lemmas.Fields
import Verif.Props.Arith
import Verif.Props.Rewards
import Verif.Props.Exact
import Verif.Props.Settle
import Verif.Props.Calls
import Verif.SpecLive
import Verif.Lemmas.Live
import Verif.Lemmas.LiveSimple
import Verif.Lemmas.LiveMove
import Verif.Lemmas.LiveToken
import Verif.Lemmas.LiveInit
import Verif.Lemmas.LiveSync
import Verif.WitnessLive
import Verif.Props.Live
import Verif.SpecFoot
import Verif.Lemmas.Footprint
import Verif.Props.Footprint
import Verif.Model.Client
import Verif.SpecClient
import Verif.Lemmas.Client
import Verif.Props.Client
import Verif.Model.Pda
import Verif.Props.Pda
import Verif.SpecOrder
import Verif.Lemmas.Local
import Verif.SpecExtra
import Verif.Lemmas.Extra
import Verif.Props.Order
import Verif.Props.Extra
import Verif.SpecKeeper
import Verif.Props.Keeper
import Verif.SpecHand
import Verif.Lemmas.Hand
import Verif.WitnessHand
import Verif.Props.Hand
import Verif.SpecSplit
import Verif.Props.Split
import Verif.SpecAccrual
import Verif.Lemmas.Quiet
import Verif.Props.Accrual
import Verif.Props.Run
import Verif.Props.Sync
import Verif.SpecAccounts
import Verif.Props.Accounts
import Verif.Props.Vault
import Verif.SpecPanic
import Verif.Lemmas.Calm
import Verif.Lemmas.CalmIx
import Verif.Props.Panic
import Verif.Model.ClientBuild
import Verif.SpecBuild
import Verif.Lemmas.Build
import Verif.Props.Build
import Verif.Model.Js
import Verif.SpecJs
import Verif.Lemmas.Js
import Verif.Lemmas.JsAccounts
import Verif.Props.Js
import Verif.Props.JsAccounts
import Verif.SpecErrors
import Verif.Lemmas.Blame
import Verif.Lemmas.BlameIx
import Verif.Model.Errors
import Verif.Props.Errors
import Verif.Model.Idl
import Verif.SpecIdl
import Verif.Props.Idl
import Verif.Lemmas.Marks
import Verif.SpecLedger
import Verif.Lemmas.Reckon
import Verif.Props.Ledger
import Verif.SpecShortfall
import Verif.Props.Shortfall
import Verif.SpecOrphan
import Verif.Props.Orphan
import Verif.SpecExit
import Verif.Props.Exit
import Verif.Props.Drain
import Verif.Model.Tx
import Verif.SpecTx
import Verif.Lemmas.Rent
import Verif.Props.Tx
import Verif.Props.FalseVault
import Verif.Lemmas.Exact
import Verif.Props.Exactly
import Verif.Lemmas.ExactToken
import Verif.Props.ExactlyToken
import Verif.Lemmas.ExactSync
import Verif.Props.ExactlySync
import Verif.Props.Clock
import Verif.SpecFaults
import Verif.Lemmas.Fault
import Verif.Lemmas.FaultIx
import Verif.Props.Faults
import Verif.SpecEffect
import Verif.Lemmas.Effect
import Verif.Props.Effects
import Verif.SpecRules
import Verif.Lemmas.Rules
import Verif.Lemmas.RulesEnd
import Verif.Props.Rules
import Verif.Lemmas.Lost
import Verif.Props.Lost
import Verif.SpecSettles
import Verif.SpecIdle
import Verif.Props.Idle
import Verif.Props.First
import Verif.SpecDuna
import Verif.Props.Consent
import Verif.SpecShare
import Verif.Props.Share
import Verif.SpecCalls
import Verif.Lemmas.Calls
import Verif.Lemmas.CallsIx
import Verif.Props.Signature
import Verif.SpecHolderShare
import Verif.Props.HolderShare
import Verif.SpecNative
import Verif.Props.Native
import Verif.SpecPrivilege
import Verif.Props.Privilege
import Verif.Model.Exported
import Verif.Props.Exported
import Verif.Props.Docs
import Verif.Props.Frozen
import Verif.Props.Timing
import Verif.SpecSettings
import Verif.Props.Settings
import Verif.SpecBook
import Verif.Props.Book
import Verif.Props.KeeperReward
import Verif.Props.Nothing
import Verif.Props.Parts
import Verif.Model.JsFetch
import Verif.Props.JsFetch
import Verif.SpecSwap
import Verif.Props.Swap
import Verif.SpecJournal
import Verif.Props.Journal
import Verif.SpecTally
import Verif.Props.Tally
import Verif.Props.Locks
import Verif.Props.Again
import Verif.SpecHoldings
import Verif.Props.Holdings
import Verif.SpecLast
import Verif.Props.Last
import Verif.SpecOnce
import Verif.Props.Once
import Verif.Model.ClientAccounts
import Verif.Props.ClientAccounts
import Verif.Replay
