import Verif.Arith
import Verif.CMatrix
import Verif.CVector
import Verif.Exact.Adjoint
import Verif.Exact.Algebra
import Verif.Exact.Boosts
import Verif.Exact.Bosons
import Verif.Exact.Chains
import Verif.Exact.Colours
import Verif.Exact.Conjugate
import Verif.Exact.Covariance
import Verif.Exact.Dirac
import Verif.Exact.Fermions
import Verif.Exact.Finite
import Verif.Exact.FourGluons
import Verif.Exact.Generators
import Verif.Exact.Helicity
import Verif.Exact.Jacobi
import Verif.Exact.Lorentz
import Verif.Exact.Massive
import Verif.Exact.Ops
import Verif.Exact.Particle
import Verif.Exact.Polar
import Verif.Exact.Pow
import Verif.Exact.Spinors
import Verif.Exact.Standard
import Verif.Exact.Ward
import Verif.Exact.XR
import Verif.Ieee
import Verif.Particle
import Verif.ParticleLemmas
import Verif.Process
import Verif.Propagator
import Verif.Props.Algebra
import Verif.Props.Antiparticles
import Verif.Props.Brackets
import Verif.Props.ChargedCurrent
import Verif.Props.Copies
import Verif.Props.Direct
import Verif.Props.Drivers
import Verif.Props.Exchange
import Verif.Props.Feynman
import Verif.Props.FeynmanBosons
import Verif.Props.FeynmanFourGluons
import Verif.Props.FeynmanGluons
import Verif.Props.FeynmanHelicity
import Verif.Props.FeynmanLight
import Verif.Props.FeynmanPhotons
import Verif.Props.FeynmanRest
import Verif.Props.Finite
import Verif.Props.GateIeee
import Verif.Props.Generators
import Verif.Props.Gluons
import Verif.Props.HelicityMean
import Verif.Props.Identical
import Verif.Props.Invariance
import Verif.Props.Kinematics
import Verif.Props.Mandelstam
import Verif.Props.MassShell
import Verif.Props.Mixture
import Verif.Props.NanIeee
import Verif.Props.Order
import Verif.Props.Parity
import Verif.Props.ParticleHistory
import Verif.Props.Plus
import Verif.Props.PlusIeee
import Verif.Props.Positive
import Verif.Props.Processes
import Verif.Props.Products
import Verif.Props.Rejected
import Verif.Props.Reversal
import Verif.Props.SpinLoops
import Verif.Props.Spinors
import Verif.Props.Stale
import Verif.Props.Stored
import Verif.Props.Strings
import Verif.Props.TestFrames
import Verif.Props.TestKinematics
import Verif.Props.Textbook
import Verif.Props.Unfinished
import Verif.Props.Units
import Verif.SM.BosonRow
import Verif.SM.BosonRows
import Verif.SM.Bosons.Compton
import Verif.SM.Bosons.FourHiggs
import Verif.SM.Bosons.FourWWWW
import Verif.SM.Bosons.FourWWWW2
import Verif.SM.Bosons.FourZWZW
import Verif.SM.Bosons.FourZZWW
import Verif.SM.Bosons.FourZhWW
import Verif.SM.Bosons.GluonHiggs
import Verif.SM.Bosons.GluonPairs
import Verif.SM.Bosons.GluonPhoton
import Verif.SM.Bosons.GluonPhotonIn
import Verif.SM.Bosons.GluonW
import Verif.SM.Bosons.GluonZ
import Verif.SM.Bosons.GluonZt
import Verif.SM.Bosons.Higgs
import Verif.SM.Bosons.NeutrinoWW
import Verif.SM.Bosons.PhotonHiggs
import Verif.SM.Bosons.PhotonHiggsE
import Verif.SM.Bosons.PhotonW
import Verif.SM.Bosons.PhotonWW
import Verif.SM.Bosons.PhotonWh
import Verif.SM.Bosons.PhotonWud
import Verif.SM.Bosons.PhotonZ
import Verif.SM.Bosons.PhotonZW
import Verif.SM.Bosons.PhotonZt
import Verif.SM.Bosons.Photons
import Verif.SM.Bosons.PhotonsOut
import Verif.SM.Bosons.PolarFour
import Verif.SM.Bosons.PolarGluons
import Verif.SM.Bosons.PolarHiggs
import Verif.SM.Bosons.PolarPhotons
import Verif.SM.Bosons.PolarW
import Verif.SM.Bosons.PolarZ
import Verif.SM.Bosons.TextbookCompton
import Verif.SM.Bosons.TextbookIn
import Verif.SM.Bosons.TextbookOut
import Verif.SM.Bosons.WHiggs
import Verif.SM.Bosons.WW
import Verif.SM.Bosons.WWt
import Verif.SM.Bosons.WdWd
import Verif.SM.Bosons.ZHiggs
import Verif.SM.Bosons.ZW
import Verif.SM.Bosons.ZZ
import Verif.SM.Bosons.ZZt
import Verif.SM.Calls
import Verif.SM.Check
import Verif.SM.Checked
import Verif.SM.Closed
import Verif.SM.Compton
import Verif.SM.Copy
import Verif.SM.Den
import Verif.SM.Diagrams
import Verif.SM.Direct
import Verif.SM.DirectEAeh
import Verif.SM.DirectEEAA
import Verif.SM.DirectKeep
import Verif.SM.DirectLemmas
import Verif.SM.DirectQED
import Verif.SM.DirectStale
import Verif.SM.DirectWitness
import Verif.SM.Electron
import Verif.SM.Exchanges
import Verif.SM.FermionRows
import Verif.SM.Fermions.Leptons
import Verif.SM.Fermions.Mixed
import Verif.SM.Fermions.Neutrinos
import Verif.SM.Fermions.Quarks
import Verif.SM.Fermions.QuarksSame
import Verif.SM.Fermions.QuarksW
import Verif.SM.Finite
import Verif.SM.FourBosons
import Verif.SM.FourFermion
import Verif.SM.FourGluons
import Verif.SM.Frame
import Verif.SM.Gauge
import Verif.SM.GluonLine
import Verif.SM.GluonRows
import Verif.SM.HelicityMean
import Verif.SM.Identical
import Verif.SM.Kinds
import Verif.SM.Lang
import Verif.SM.Light
import Verif.SM.LightLine
import Verif.SM.LightRows
import Verif.SM.Meaning
import Verif.SM.Mirror
import Verif.SM.Mixture
import Verif.SM.Numbers
import Verif.SM.Object
import Verif.SM.OneBoson
import Verif.SM.OneBosonClasses
import Verif.SM.OneBosonRows
import Verif.SM.OneW
import Verif.SM.Order
import Verif.SM.PhotonBosons
import Verif.SM.PhotonRows
import Verif.SM.Plus
import Verif.SM.Polar
import Verif.SM.Positive
import Verif.SM.Proc.All
import Verif.SM.Proc.G01
import Verif.SM.Proc.G02
import Verif.SM.Proc.G03
import Verif.SM.Proc.G04
import Verif.SM.Proc.G05
import Verif.SM.Proc.G06
import Verif.SM.Proc.G07
import Verif.SM.Proc.G08
import Verif.SM.Proc.G09
import Verif.SM.Proc.G10
import Verif.SM.Proc.G11
import Verif.SM.Proc.G12
import Verif.SM.Proc.User
import Verif.SM.Pure
import Verif.SM.Reactions
import Verif.SM.Real
import Verif.SM.Rejected
import Verif.SM.Scaling
import Verif.SM.ScalingSound
import Verif.SM.SetMembers
import Verif.SM.Sign
import Verif.SM.SignSound
import Verif.SM.Sound
import Verif.SM.SpinLoops
import Verif.SM.SpinSums
import Verif.SM.Stored
import Verif.SM.Textbook
import Verif.SM.TextbookMassless
import Verif.SM.ThreeBosons
import Verif.SM.TwoFrames
import Verif.SM.TwoGluons
import Verif.SM.Typed
import Verif.SM.Typing
import Verif.SM.TypingCalls
import Verif.SM.TypingCombs
import Verif.SM.TypingNest
import Verif.SM.TypingSound
import Verif.SM.VevRows
import Verif.SProduct
import Verif.SProductLemmas
import Verif.Spec.Bosons
import Verif.Spec.Brackets
import Verif.Spec.Chains
import Verif.Spec.ChargedCurrent
import Verif.Spec.Collision
import Verif.Spec.Exchange
import Verif.Spec.Feynman
import Verif.Spec.Helicity
import Verif.Spec.History
import Verif.Spec.Kinematics
import Verif.Spec.Lorentz
import Verif.Spec.Minkowski
import Verif.Spec.Parton
import Verif.Spec.Spinors
import Verif.Spec.Spins
import Verif.Spec.Textbook
import Verif.Utilities
