import Verif.Proofs.Json
import Verif.Model.StreamIn
import Verif.Proofs.StreamIn
import Verif.Props.StreamIn
import Verif.Proofs.Header
import Verif.Proofs.StreamOut
import Verif.Proofs.StreamOutFile
import Verif.Proofs.Reserve
import Verif.Proofs.StreamOutMore
import Verif.Props.StreamOut
import Verif.Props.Format
import Verif.Props.Strided
import Verif.Props.Method
import Verif.Props.Serialize
import Verif.Props.Conversion
import Verif.Props.Eval
import Verif.Props.Merge
import Verif.Props.Cast
import Verif.Props.Float
import Verif.Props.Registry
import Verif.Props.Infer
import Verif.Props.Inputs
import Verif.Props.Structural
import Verif.Props.Extra
import Verif.Props.Region
import Verif.Props.Dropout
import Verif.Props.Arith
import Verif.Props.Ties
import Verif.Props.Geometry
import Verif.Props.Wrappers
import Verif.Props.Budget
import Verif.Props.Defaults
import Verif.Data.Entry
import Verif.Data.FluxFlux
import Verif.Data.FluxFluxDiffuserOnly
import Verif.Data.Sd1Kohya
import Verif.Data.Sd1Ldm
import Verif.Data.Sd1SupermergerBlocks
import Verif.Data.Sd3Comfyui
import Verif.Data.SdxlDiffusersUnetOnly
import Verif.Data.SdxlKohya
import Verif.Data.SdxlSgm
import Verif.Data.SdxlSupermergerBlocks
import Verif.Data.CertFlux
import Verif.Data.CertSd1
import Verif.Data.CertSd1Blocks
import Verif.Data.CertSdxl
import Verif.Data.CertSdxlBlocks
import Verif.Data.CertUnet
import Verif.Model.Convert
import Verif.Py.Text
import Verif.Proofs.Text
import Verif.Proofs.ConvertFast
import Verif.Proofs.ConvertCheck
import Verif.Proofs.ConvertLost
import Verif.Proofs.ConvertFacts
import Verif.Proofs.Digits
import Verif.Props.ConvertSpec
import Verif.Props.ConvertBlocks
import Verif.Props.Convert
import Verif.Model.Lycoris
import Verif.Props.Lycoris
import Verif.Model.Cosine
import Verif.Props.Cosine
import Verif.Model.Power
import Verif.Props.Power
import Verif.Model.Crossover
import Verif.Props.Crossover
import Verif.Model.Rank
import Verif.Props.Rank
import Verif.Model.TopK
import Verif.Props.TopK
import Verif.Model.Ema
import Verif.Proofs.EmaFast
import Verif.Data.CertEma
import Verif.Props.Ema
import Verif.Props.Choice
import Verif.Props.Shipped
import Verif.Props.Mapping
import Verif.Proofs.Decompose
import Verif.Model.Rotate
import Verif.Props.Rotate
import Verif.Model.Declare
import Verif.Spec.Declare
import Verif.Props.Declare
import Verif.Model.FailedSave
import Verif.Spec.FailedSave
import Verif.Props.FailedSave
import Verif.Model.Overwrite
import Verif.Spec.Overwrite
import Verif.Props.Overwrite
import Verif.Model.Program
import Verif.Spec.Program
import Verif.Proofs.Program
import Verif.Model.Threads
import Verif.Spec.Threads
import Verif.Proofs.Threads
import Verif.Props.Threads
import Verif.Model.Whole
import Verif.Spec.Whole
import Verif.Proofs.Whole
import Verif.Props.Whole
import Verif.Model.Yaml
import Verif.Spec.Yaml
import Verif.Proofs.Yaml
import Verif.Props.Yaml
import Verif.Model.Registered
import Verif.Props.Registered
import Verif.Model.Ieee
import Verif.Spec.Ieee
import Verif.Proofs.Ieee
import Verif.Props.Ieee
import Verif.Model.Readme
import Verif.Spec.Readme
import Verif.Proofs.Readme
import Verif.Proofs.ReadmeEntry
import Verif.Proofs.ReadmeEval
import Verif.Props.Readme
import Verif.Props.Copy
import Verif.Model.Mem
import Verif.Model.MemMethods
import Verif.Spec.Mem
import Verif.Proofs.Mem
import Verif.Proofs.MemCast
import Verif.Props.Mem
import Verif.Model.Lora
import Verif.Spec.Lora
import Verif.Proofs.Lora
import Verif.Props.Lora
import Verif.Model.ByName
import Verif.Spec.ByName
import Verif.Proofs.ByName
import Verif.Props.ByName
import Verif.Model.RecipeFile
import Verif.Spec.RecipeFile
import Verif.Props.RecipeFile
import Verif.Spec.Total
import Verif.Proofs.Total
import Verif.Props.Total
import Verif.Model.Broadcast
import Verif.Model.Shape
import Verif.Spec.Shape
import Verif.Proofs.Shape
import Verif.Props.Shape
import Verif.Spec.Reproducible
import Verif.Proofs.Reproducible
import Verif.Props.Reproducible
import Verif.Props.Remake
import Verif.Model.WholeExtra
import Verif.Spec.WholeExtra
import Verif.Proofs.WholeExtra
import Verif.Props.WholeExtra
import Verif.Model.Linear
import Verif.Spec.Linear
import Verif.Proofs.LinearNum
import Verif.Proofs.LinearOps
import Verif.Proofs.LinearMean
import Verif.Proofs.LinearEval
import Verif.Proofs.LinearVar
import Verif.Proofs.Linear
import Verif.Proofs.LinearMain
import Verif.Props.Linear
import Verif.Model.Cached
import Verif.Spec.Cached
import Verif.Proofs.Cached
import Verif.Proofs.CachedMemo
import Verif.Props.Cached
import Verif.Model.Blocks
import Verif.Spec.Blocks
import Verif.Proofs.Blocks
import Verif.Proofs.BlocksCast
import Verif.Proofs.BlocksWhole
import Verif.Proofs.BlocksLocal
import Verif.Proofs.BlocksReadme
import Verif.Props.Blocks
import Verif.Proofs.Returned
import Verif.Spec.Assembly
import Verif.Proofs.Assembly
import Verif.Props.Assembly
import Verif.Model.Converted
import Verif.Spec.Converted
import Verif.Proofs.Converted
import Verif.Props.Converted
import Verif.Model.Held
import Verif.Spec.Held
import Verif.Proofs.Held
import Verif.Proofs.HeldBound
import Verif.Proofs.HeldWhole
import Verif.Proofs.HeldThreads
import Verif.Proofs.HeldLoads
import Verif.Proofs.HeldText
import Verif.Props.Held
import Verif.Model.Traffic
import Verif.Spec.Traffic
import Verif.Proofs.Traffic
import Verif.Props.Traffic
import Verif.Spec.Steps
import Verif.Proofs.Steps
import Verif.Proofs.StepsFile
import Verif.Proofs.StepsCalm
import Verif.Props.Steps
