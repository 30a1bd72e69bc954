import Verif.Props.Chomp
import Verif.Props.Data
import Verif.Props.Galois
import Verif.Props.Format
import Verif.Props.Blocks
import Verif.Props.Correct
import Verif.Props.Decoder
import Verif.Props.DecoderExamples
import Verif.Props.Damage
import Verif.Props.DamageExamples
import Verif.Props.Pipeline
import Verif.Props.Threshold
import Verif.Props.Finder
import Verif.Props.Detect
import Verif.Props.DetectExamples
import Verif.Props.Extract
import Verif.Props.Rendering
import Verif.Props.ExtractPanics
import Verif.Props.ExtractReach
import Verif.Props.ExtractExamples
import Verif.Props.Detection
import Verif.Props.Located
import Verif.Props.Default
import Verif.Props.Among
import Verif.Props.Scales
import Verif.Props.ScalesExamples
import Verif.Props.AmongExamples
import Verif.Props.DamagedImage
import Verif.Props.DamagedImageExamples
import Verif.Lemmas.TurnedQr
import Verif.Lemmas.TurnedFinders
import Verif.Props.Turned
import Verif.Props.TurnedPicture
import Verif.Props.TurnedExamples
import Verif.Props.Mirrored
import Verif.Props.MirroredExamples
import Verif.Props.Lighting
import Verif.Props.LightingExamples
import Verif.Props.Placed
import Verif.Props.PlacedExamples
import Verif.Props.Tilted
import Verif.Props.TiltedExamples
import Verif.Props.TiltedRead
import Verif.Props.TiltedOverlooked
import Verif.Props.Panics
import Verif.Props.PanicsExamples
import Verif.Props.Clear
import Verif.Props.ClearExamples
import Verif.Props.Texts
import Verif.Props.Once
import Verif.Props.OnceExamples
import Verif.Props.Negative
import Verif.Props.NegativeLarge
import Verif.Props.NegativeExamples
import Verif.Props.Bounds
import Verif.Props.Resized
import Verif.Props.ResizedExamples
import Verif.Props.UnitTests
import Verif.Props.Axioms
