import Verif.Model.Parser
import Verif.Model.RustGen
import Verif.Model.DartGen
import Verif.Model.ToCase
import Verif.Proofs.RustText
import Verif.Proofs.DartText
import Verif.Proofs.DartFacts
import Verif.Proofs.DartRpcFacts
import Verif.Proofs.DartRpcEmits
import Verif.Proofs.RustRpcFacts
import Verif.Proofs.RustRpcEmits
import Verif.Props.Lexer
import Verif.Props.Parser
import Verif.Props.RustCodec
import Verif.Props.RustDefault
import Verif.Props.Output
import Verif.Props.DartCodec
import Verif.Props.DartSkip
import Verif.Props.RpcServer
import Verif.Props.RpcClient
import Verif.Props.RpcSystem
import Verif.Tests.GoldenRust
import Verif.Tests.GoldenDart
import Verif.Props.Consts
import Verif.Props.ConstsFile
import Verif.Model.KotlinGen
import Verif.Model.SwiftGen
import Verif.Props.Mobile
import Verif.Tests.GoldenKotlin
import Verif.Tests.GoldenSwift
import Verif.Props.Main
import Verif.Props.RpcNames
import Verif.Props.RpcLost
import Verif.Props.RpcLostClient
import Verif.Props.RpcAnswerLost
import Verif.Sem.Each
import Verif.Sem.Kotlin
import Verif.Sem.Swift
import Verif.Proofs.KotlinText
import Verif.Proofs.SwiftText
import Verif.Spec.MobileModels
import Verif.Props.MobileModels
import Verif.Spec.Evolution
import Verif.Props.Evolution
import Verif.Props.FieldNumbers
import Verif.Props.RpcEvolution
import Verif.Proofs.RpcStream
import Verif.Props.RpcStream
import Verif.Spec.Recorded
import Verif.Proofs.MoreStack
import Verif.Proofs.RpcStreamSync
import Verif.Props.RpcStreamSync
import Verif.Spec.RustTyping
import Verif.Proofs.RustTyping
import Verif.Props.RustTyping
import Verif.Spec.Idents
import Verif.Spec.DartTyping
import Verif.Proofs.DartTyping
import Verif.Props.DartTyping
import Verif.Spec.EndToEnd
import Verif.Props.EndToEnd
import Verif.Props.RustRpcTyping
import Verif.Spec.ConstTyping
import Verif.Proofs.ConstTyping
import Verif.Props.ConstTyping
import Verif.Spec.DartRpcTyping
import Verif.Proofs.DartRpcTyping
import Verif.Props.DartRpcTyping
import Verif.Props.RpcArguments
import Verif.Sem.DartDisconnect
import Verif.Props.RpcDisconnect
import Verif.Spec.Untrusted
import Verif.Proofs.Untrusted
import Verif.Proofs.UntrustedLE
import Verif.Props.Untrusted
import Verif.Spec.UntrustedRpc
import Verif.Proofs.UntrustedRpc
import Verif.Props.UntrustedRpc
import Verif.Spec.RpcProgress
import Verif.Proofs.RpcProgress
import Verif.Props.RpcProgress
import Verif.Spec.UntrustedDart
import Verif.Proofs.UntrustedDart
import Verif.Proofs.UntrustedDartLE
import Verif.Props.UntrustedDart
import Verif.Props.SameMessages
import Verif.Spec.UntrustedClient
import Verif.Proofs.UntrustedClient
import Verif.Props.UntrustedClient
import Verif.Spec.RpcSequential
import Verif.Proofs.RpcSolo
import Verif.Proofs.RpcSequential
import Verif.Proofs.RpcPossible
import Verif.Props.RpcSequential
import Verif.Spec.MobileConsts
import Verif.Proofs.MobileConsts
import Verif.Props.MobileConsts
import Verif.Spec.MobileTyping
import Verif.Proofs.KotlinTyping
import Verif.Proofs.SwiftTyping
import Verif.Props.MobileTyping
import Verif.Sem.MobileEval
import Verif.Spec.MobileDefaults
import Verif.Proofs.MobileDefaults
import Verif.Proofs.KotlinDefaults
import Verif.Proofs.SwiftDefaults
import Verif.Props.MobileDefaults
import Verif.Spec.Names
import Verif.Spec.Pieces
import Verif.Spec.RustReader
import Verif.Proofs.Names
import Verif.Proofs.Pieces
import Verif.Proofs.RustReader
import Verif.Proofs.RustReaderItems
import Verif.Proofs.RustReaderImpls
import Verif.Proofs.RustReaderGen
import Verif.Props.Names
import Verif.Props.RustReader
import Verif.Spec.TypeView
import Verif.Proofs.TypeView
import Verif.Props.TypeView
import Verif.Spec.Combinators
import Verif.Spec.DartReader
import Verif.Proofs.Combinators
import Verif.Proofs.Blocks
import Verif.Proofs.DartReader
import Verif.Proofs.DartReaderCodecs
import Verif.Proofs.DartReaderModels
import Verif.Proofs.DartReaderGen
import Verif.Props.DartReader
import Verif.Spec.RustRpcReader
import Verif.Proofs.Split
import Verif.Proofs.RustRpcReader
import Verif.Proofs.RustRpcReaderGen
import Verif.Proofs.RustRpcTrim
import Verif.Props.RustRpcReader
import Verif.Spec.DartRpcReader
import Verif.Proofs.DartRpcReader
import Verif.Proofs.DartRpcReaderClass
import Verif.Proofs.DartRpcReaderGen
import Verif.Proofs.DartRpcTrim
import Verif.Proofs.RustActs
import Verif.Proofs.RpcSystemTrim
import Verif.Proofs.DartRpcTypingTrim
import Verif.Props.DartRpcReader
import Verif.Props.KotlinReader
import Verif.Props.SwiftReader
import Verif.Props.MobileSpelling
import Verif.Props.FileReader
import Verif.Props.Locality
import Verif.Props.DartMethods
import Verif.Props.DartDefault
import Verif.Sem.DartHeap
import Verif.Spec.DartHeap
import Verif.Proofs.DartHeap
import Verif.Proofs.DartHeapNew
import Verif.Proofs.DartHeapRead
import Verif.Proofs.DartHeapWrite
import Verif.Props.DartHeap
import Verif.Sem.DartHeapMethods
import Verif.Spec.DartHeapMethods
import Verif.Proofs.DartHeapMethods
import Verif.Props.DartHeapMethods
import Verif.Props.DecimalLiterals
import Verif.Spec.Renaming
import Verif.Proofs.Renaming
import Verif.Props.Renaming
import Verif.Props.RpcRenaming
import Verif.Spec.Appending
import Verif.Props.Appending
import Verif.Props.AppendingMore
import Verif.Props.AppendingShort
import Verif.Props.Rerun
import Verif.Props.ConfigOrder
import Verif.Props.RpcPlaces
import Verif.Props.RpcTwoClients
