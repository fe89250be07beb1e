import Verif.Lattice.Props
import Verif.State.IOProps
import Verif.State.AuxProps
import Verif.State.BondProps
import Verif.Group.PgProps
import Verif.Group.Su2Props
import Verif.Group.PermProps
import Verif.Linalg.TruncProps
import Verif.Linalg.SignProps
import Verif.Linalg.AdjointProps
import Verif.Optim.ArmijoProps
import Verif.Optim.LbfgsProps
import Verif.Optim.StepProps
import Verif.Optim.LoopProps
import Verif.Optim.CkptProps
import Verif.Optim.ResumeProps
import Verif.Optim.SgdProps
import Verif.Ctm.CornerProps
import Verif.Ctm.AbsorbProps
import Verif.Ctm.MoveExample
import Verif.Ctm.ConvProps
import Verif.Ctm.InitProps
import Verif.Ctm.ProjProps
import Verif.Rdm.SymProps
import Verif.Rdm.Props
import Verif.Rdm.PlaqProps
import Verif.Rdm.TripleProps
import Verif.Oe.UnrollProps
import Verif.Rdm.MpsProps
import Verif.C4v.Examples
import Verif.Config.Props
import Verif.Corrf.Props
import Verif.Corrf.Props2
import Verif.Corrf.Loop2
import Verif.Energy.Examples
import Verif.Energy.BipartiteProps
import Verif.C4v.RdmProps
import Verif.C4v.CorrfProps
import Verif.State.LcProps
import Verif.Group.BasisProps
import Verif.State.KagomeProps
import Verif.State.KagomeExtend
import Verif.State.KagomeLc
import Verif.State.KagomeIO
import Verif.State.KagomeLcIO
import Verif.Transfer.Props
import Verif.Transfer.Witness
import Verif.Transfer.Entangle
import Verif.C4v.RdmCyclic
import Verif.Rdm.RowStrip
import Verif.Rdm.PairStrip
import Verif.Rdm.PositiveProps
import Verif.Energy.C4vModel
import Verif.Energy.C4vProps
import Verif.Energy.C4vLowmem
import Verif.Energy.C4vWitness
import Verif.Energy.CorrModel
import Verif.Energy.CorrLemmas
import Verif.Energy.CorrProps
import Verif.Energy.CorrC4v
import Verif.Energy.CorrWitness
import Verif.Energy.ObsModel
import Verif.Energy.ObsProps
import Verif.Energy.ObsC4v
import Verif.Energy.ObsWitness
import Verif.Models.PairModel
import Verif.Models.PairSpec
import Verif.Models.PairLemmas
import Verif.Models.PairProps
import Verif.Models.Product
import Verif.Models.PlaqModel
import Verif.Models.PlaqProps
import Verif.Models.Witness
import Verif.Models.AkltModel
import Verif.Models.AkltTable
import Verif.Models.AkltProps
import Verif.Models.ChainModel
import Verif.Models.ChainProps
import Verif.Models.JqModel
import Verif.Models.JqProps
import Verif.Models.JqWitness
import Verif.Models.JqPlaqModel
import Verif.Models.JqPlaqProps
import Verif.Models.JqPlaqWitness
import Verif.Models.JqPlaqObs
import Verif.Kagome.Model
import Verif.Kagome.Net
import Verif.Kagome.Layer
import Verif.Kagome.Spec
import Verif.Kagome.Marginal
import Verif.Kagome.Block
import Verif.Kagome.Unfuse
import Verif.Kagome.Plaq
import Verif.Kagome.Plaq2
import Verif.Kagome.Pair
import Verif.Kagome.Pair2
import Verif.Kagome.Props
import Verif.Kagome.Example
import Verif.Kagome.TriModel
import Verif.Kagome.TriSpec
import Verif.Kagome.Tri
import Verif.Kagome.TriProps
import Verif.Kagome.UpProps
import Verif.Kagome.HamSpec
import Verif.Kagome.HamModel
import Verif.Kagome.Ham
import Verif.Kagome.HamProps
import Verif.Kagome.ProductState
import Verif.Kagome.HamWitness
import Verif.Kagome.One
import Verif.Kagome.OneProps
import Verif.Kagome.NewModel
import Verif.Kagome.New
import Verif.Kagome.NewProps
import Verif.Kagome.NewWitness
import Verif.Kagome.ObsModel
import Verif.Kagome.Obs
import Verif.Kagome.ObsProps
import Verif.Kagome.ObsWitness
import Verif.Group.Su3
import Verif.Group.Su3Props
import Verif.Kagome.Su3Spec
import Verif.Kagome.Su3Model
import Verif.Kagome.Su3Ham
import Verif.Kagome.Su3Energy
import Verif.Kagome.Su3Obs
import Verif.Kagome.Su3Props
import Verif.Kagome.Su3Witness
import Verif.Kagome.ChiralModel
import Verif.Kagome.Chiral
import Verif.Kagome.ChiralProps
import Verif.Kagome.AkltProps
import Verif.Kagome.ChiralWitness
import Verif.Trgl.Spec
import Verif.Trgl.Model
import Verif.Trgl.Spins
import Verif.Trgl.Hold
import Verif.Trgl.Props
import Verif.Trgl.Energy
import Verif.Trgl.Product
import Verif.Trgl.ObsModel
import Verif.Trgl.ObsProps
import Verif.Trgl.Witness
import Verif.Trgl.CorrModel
import Verif.Trgl.CorrProps
import Verif.Trgl.CorrCanon
import Verif.Trgl.CorrWitness
import Verif.Rdm.SixModel
import Verif.Rdm.SixSpec
import Verif.Rdm.SixLemmas
import Verif.Rdm.SixLabels
import Verif.Rdm.Six23
import Verif.Rdm.Six32
import Verif.Rdm.SixProps
import Verif.Trgl.Turned
import Verif.Trgl.NnnModel
import Verif.Trgl.NnnProps
import Verif.Trgl.NnnWitness
import Verif.Trgl.RingModel
import Verif.Trgl.RingHold
import Verif.Trgl.RingPerm
import Verif.Trgl.RingProps
import Verif.Trgl.RingEnergy
import Verif.Trgl.RingWitness
import Verif.Rdm.ManualModel
import Verif.Rdm.ManualLemmas
import Verif.Rdm.ManualCorners
import Verif.Rdm.ManualBody23
import Verif.Rdm.ManualBody32
import Verif.Rdm.ManualCore
import Verif.Rdm.ManualProps
import Verif.Rdm.ManualWitness
import Verif.Trgl.ManualModel
import Verif.Trgl.ManualProps
import Verif.Trgl.ManualWitness
import Verif.State.TrglPgSpec
import Verif.State.TrglPgModel
import Verif.State.TrglPgSymm
import Verif.State.TrglPgTorus
import Verif.State.TrglPgProps
import Verif.State.TrglPgWitness
import Verif.State.TrglPgHistory
import Verif.State.TrglPgIO
import Verif.State.LcBpModel
import Verif.State.LcBpSpec
import Verif.State.LcBpProps
import Verif.State.LcBpHistory
import Verif.C4v.InitModel
import Verif.C4v.InitSpec
import Verif.C4v.InitLemmas
import Verif.C4v.InitProps
import Verif.C4v.InitProps2
import Verif.C4v.InitCorner
import Verif.State.GaugeModel
import Verif.State.GaugeSpec
import Verif.State.GaugeLemmas
import Verif.State.GaugeProps
import Verif.State.GaugeWitness
import Verif.State.D2Model
import Verif.State.D2Spec
import Verif.State.D2Props
import Verif.State.D2IO
import Verif.State.IpepoModel
import Verif.State.IpepoSpec
import Verif.State.IpepoProps
import Verif.State.Q1Model
import Verif.State.Q1Props
import Verif.State.SpiralModel
import Verif.State.SpiralProps
import Verif.Sym.ParserModel
import Verif.Sym.ParserSpec
import Verif.Sym.ParserProps
import Verif.Optim.SgdLoopModel
import Verif.Optim.SgdLoopProps
import Verif.Energy.LambdaProps
import Verif.Energy.IsingC4vProps
import Verif.Linalg.RsvdModel
import Verif.Linalg.RsvdProps
import Verif.Linalg.RsvdWitness
import Verif.Linalg.ArnoldiModel
import Verif.Linalg.ArnoldiProps
