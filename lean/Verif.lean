import Verif.Props.Util
import Verif.Props.Keccak
import Verif.Props.Matrix
import Verif.Props.Noise
import Verif.Props.Aes
import Verif.Props.Keccak4x
import Verif.Props.MatrixA
import Verif.Props.Kem
import Verif.Props.Kem2
import Verif.Props.KemTrace
import Verif.Props.Random
import Verif.Props.Drbg
import Verif.Props.Failure
import Verif.Props.Python
import Verif.Props.Conc
import Verif.Props.Ossl
import Verif.Props.SelfTest
import Verif.Props.Kat
import Verif.Props.NistKat
import Verif.Props.Align
import Verif.Props.SnP4
import Verif.Props.SnP4Overlap
import Verif.Props.KemAlias
import Verif.Props.Bench
import Verif.Props.Clock
import Verif.Props.ConcRandom
import Verif.Model.Make
import Verif.Proof.Make
import Verif.Props.Make
import Verif.Proof.Tells
import Verif.Props.Tells
import Verif.Spec.Binding
import Verif.Props.Rom
import Verif.Props.Binding
import Verif.Props.Security
import Verif.Props.Unroll
import Verif.Props.Endian
import Verif.Props.MakeRun
import Verif.Props.Stack
import Verif.Props.Invert
import Verif.Props.EffTypes
import Verif.Props.ShakeFrame
import Verif.Props.Gauss
import Verif.C.Lex
import Verif.C.Parse
import Verif.C.SemAttr
import Verif.C.Sem
import Verif.Text.Util
import Verif.Text.Sources
import Verif.Text.Lines
import Verif.Text.Generic
import Verif.Text.Unit640
import Verif.Text.Unit976
import Verif.Text.Unit1344
import Verif.Proof.Text
import Verif.Proof.TextEval
import Verif.Proof.TextUtil
import Verif.Proof.TextSmall
import Verif.Props.Text
import Verif.C.Link
import Verif.Text.KemFuns
import Verif.Text.KemUnits
import Verif.Proof.TextBytes
import Verif.Proof.TextFrame
import Verif.Proof.TextKem
import Verif.Proof.TextKeypair
import Verif.Proof.TextEnc
import Verif.Proof.TextDec
import Verif.Proof.TextLink
import Verif.Proof.TextRef
import Verif.Proof.TextRefMul
import Verif.Text.OptFuns
import Verif.Text.UnitFast640
import Verif.Text.UnitFast976
import Verif.Text.UnitFast1344
import Verif.Proof.TextOpt
import Verif.Proof.TextOptAs
import Verif.Proof.TextOptSa
import Verif.Props.TextKem
import Verif.Text.Fips
import Verif.Proof.TextPermute
import Verif.Proof.TextPermRun
import Verif.Proof.TextSponge
import Verif.Proof.TextFips
import Verif.Props.TextFips
import Verif.Props.TextMul
import Verif.Props.TextTrip
import Verif.C.Matrix
import Verif.Text.Aes
import Verif.Proof.TextAes
import Verif.Proof.TextSched
import Verif.Proof.TextEcb
import Verif.Props.TextAes
import Verif.C.DoLoop
import Verif.Text.Random
import Verif.Proof.TextRandom
import Verif.Props.TextRandom
import Verif.Text.OptAesFuns
import Verif.Proof.TextOptAes
import Verif.Proof.TextOptAesSa
import Verif.Proof.TextWithAes
import Verif.Props.TextOptAes
import Verif.Text.RefAesFuns
import Verif.Text.UnitRefAes640
import Verif.Text.UnitRefAes976
import Verif.Text.UnitRefAes1344
import Verif.Proof.TextRefAes
import Verif.Proof.TextInPlace
import Verif.Props.TextRefAes
import Verif.C.Struct
import Verif.Text.Rng
import Verif.Proof.TextDrbg
import Verif.Props.TextDrbg
import Verif.Props.TextKat
import Verif.Text.Windows
import Verif.Proof.TextWindows
import Verif.Props.TextWindows
import Verif.C.Taint
import Verif.Proof.Taint
import Verif.Proof.TaintEval
import Verif.Proof.TaintExec
import Verif.Text.Claims
import Verif.Props.TextTrace
import Verif.Props.TextTraceAes
