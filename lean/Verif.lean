import Verif.Props.Codec
import Verif.Props.Amounts
import Verif.Props.RateLimit
import Verif.Props.Bitmap
import Verif.Props.Borsh
import Verif.Props.Seeds
import Verif.Props.Inbound
import Verif.Props.Liveness
import Verif.Props.Outbound
import Verif.Props.Custody
import Verif.Props.Admin
import Verif.Props.Quoter
import Verif.Props.Governance
import Verif.Props.Standalone
import Verif.Props.Network
import Verif.Props.Delivery
import Verif.Props.Transactions
import Verif.Props.Throughput
import Verif.Props.Requests
import Verif.Props.Limits
import Verif.Props.Accounts
import Verif.Props.QuoterAdmin
import Verif.Props.Raw
import Verif.Props.RawSafety
import Verif.Props.RawTotal
import Verif.Props.Entry
import Verif.Props.System
import Verif.Props.SystemNet
import Verif.Props.SystemDo
import Verif.Props.SystemGov
import Verif.Props.Client
import Verif.Props.Lut
import Verif.Props.QuoterRaw
import Verif.Props.TransceiverRaw
import Verif.Props.TransceiverTotal
import Verif.Model.Evm
import Verif.Spec.Evm
import Verif.Lemmas.Evm
import Verif.Lemmas.EvmAmount
import Verif.Props.Evm
import Verif.Props.EvmAmounts
import Verif.Model.Hook
import Verif.Spec.Hook
import Verif.Lemmas.Hook
import Verif.Props.Hook
import Verif.Model.EvmManager
import Verif.Spec.EvmManager
import Verif.Lemmas.EvmCalls
import Verif.Lemmas.EvmRegistry
import Verif.Lemmas.EvmSteps
import Verif.Lemmas.EvmInbound
import Verif.Lemmas.EvmAdmin
import Verif.Example.EvmManager
import Verif.Props.EvmInbound
import Verif.Props.EvmRegistry
import Verif.Lemmas.EvmOutbound
import Verif.Lemmas.EvmCustody
import Verif.Spec.EvmLimits
import Verif.Lemmas.EvmLimits
import Verif.Lemmas.EvmFlows
import Verif.Lemmas.EvmConfig
import Verif.Props.EvmOutbound
import Verif.Props.EvmCustody
import Verif.Props.EvmLimits
import Verif.Spec.EvmRights
import Verif.Lemmas.EvmRights
import Verif.Props.EvmRights
import Verif.Spec.EvmInstructions
import Verif.Lemmas.EvmInstructions
import Verif.Props.EvmInstructions
import Verif.Spec.EvmLiveness
import Verif.Lemmas.EvmLiveness
import Verif.Props.EvmLiveness
import Verif.Props.EvmNoLimits
import Verif.Props.EvmGovernance
import Verif.Props.EvmReentrancy
import Verif.Props.EvmUpgrade
import Verif.Spec.MixedNetwork
import Verif.Lemmas.EvmNetwork
import Verif.Lemmas.MixedNetwork
import Verif.Lemmas.MixedValue
import Verif.Example.MixedNetwork
import Verif.Props.MixedNetwork
import Verif.Spec.MixedDelivery
import Verif.Lemmas.EvmDelivery
import Verif.Lemmas.MixedDelivery
import Verif.Example.MixedDelivery
import Verif.Props.MixedDelivery
import Verif.Model.EvmRelaying
import Verif.Spec.EvmRelaying
import Verif.Lemmas.EvmRelaying
import Verif.Props.EvmRelaying
import Verif.Model.EvmHooks
import Verif.Spec.EvmHooks
import Verif.Lemmas.EvmHooks
import Verif.Lemmas.EvmHooksPlain
import Verif.Lemmas.EvmHooksGuard
import Verif.Props.EvmHooks
import Verif.Model.QuoterIdl
import Verif.Model.QuoterClient
import Verif.Spec.QuoterClient
import Verif.Lemmas.Double
import Verif.Lemmas.QuoterClient
import Verif.Props.QuoterClient
import Verif.Model.Sdk
import Verif.Spec.Sdk
import Verif.Lemmas.Sdk
import Verif.Props.Sdk
import Verif.Model.SdkTrack
import Verif.Spec.SdkTrack
import Verif.Lemmas.SdkTrack
import Verif.Props.SdkTrack
import Verif.Model.SdkFlows
import Verif.Spec.SdkFlows
import Verif.Props.SdkFlows
import Verif.Model.EvmAllowance
import Verif.Spec.EvmAllowance
import Verif.Props.EvmAllowance
import Verif.Model.SdkFlowsEvm
import Verif.Spec.SdkFlowsEvm
import Verif.Props.SdkFlowsEvm
import Verif.Model.SdkRoutes
import Verif.Spec.SdkRoutes
import Verif.Props.SdkRoutes
import Verif.Model.SdkAdmin
import Verif.Spec.SdkAdmin
import Verif.Props.SdkAdmin
import Verif.Model.Cli
import Verif.Model.CliPeers
import Verif.Spec.Cli
import Verif.Spec.CliPeers
import Verif.Props.Cli
import Verif.Props.CliPeers
import Verif.Model.CliConfig
import Verif.Spec.CliConfig
import Verif.Props.CliConfig
