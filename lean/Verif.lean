import Verif.Model.Cli
import Verif.Props.Codec
import Verif.Props.DataFiles
import Verif.Props.Formats
import Verif.Props.Sign
import Verif.Props.Keygen
import Verif.Props.SealStream
import Verif.Props.SealFiles
import Verif.Props.Cli
import Verif.Props.CommandLine
import Verif.Props.Effects
import Verif.Props.Field
import Verif.Props.Matching
import Verif.Props.Group
import Verif.Props.Scalar
import Verif.Props.Binding
import Verif.Props.Transfer
import Verif.Props.Faults
import Verif.Props.Truncation
import Verif.Props.Leak
import Verif.Props.Overwrite
import Verif.Props.CutSealed
import Verif.Real.TestData
import Verif.Real.RunTestData
import Verif.Props.Workflow
import Verif.Props.Interrupted
import Verif.Props.Footprint
import Verif.Props.Independence
import Verif.Props.Readers
import Verif.Props.Interchange
import Verif.Props.Platform
import Verif.Props.Signed
import Verif.Props.Growing
import Verif.Props.SourceText
import Verif.Props.SourceVerify
import Verif.Source.CodingWrite
import Verif.Source.TextMain
import Verif.Props.SourceCoding
import Verif.Source.CryptoNonce
import Verif.Source.CryptoSeal
import Verif.Source.EvalTidy
import Verif.Source.SealRun
import Verif.Source.Keep
import Verif.Source.DataRun
import Verif.Source.LoadRun
import Verif.Source.LoadAny
import Verif.Source.EvalFar
import Verif.Source.PrivRun
import Verif.Source.VerifyRun
import Verif.Source.KeyBox
import Verif.Source.Turns
import Verif.Props.SourceCrypto
import Verif.Source.VerifyText
import Verif.Source.WorldSys
import Verif.Props.SourceKeys
import Verif.Source.SignParts
import Verif.Source.SignCalls
import Verif.Source.ZeroRun
import Verif.Source.SignText
import Verif.Source.SignMain
import Verif.Source.Seen
import Verif.Props.SourceSign
import Verif.Source.GenRun
import Verif.Source.GenPair
import Verif.Source.GenText
import Verif.Source.GenMain
import Verif.Props.SourceGenerate
import Verif.Source.Calls
import Verif.Source.SealText
import Verif.Source.Zero64
import Verif.Source.ToBoxText
import Verif.Source.SealMain
import Verif.Props.SourceSeal
import Verif.Source.OpenText
import Verif.Source.OpenLoop
import Verif.Source.OpenRun
import Verif.Source.OpenAll
import Verif.Source.OpenMain
import Verif.Source.OpenSeen
import Verif.Props.SourceOpen
import Verif.Source.PromptText
import Verif.Props.SourcePrompt
import Verif.Source.CmdLib
import Verif.Source.CmdMain
import Verif.Props.SourceMain
