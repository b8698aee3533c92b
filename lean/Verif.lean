import Verif.Lemmas.Accuracy
import Verif.Lemmas.AddFunction
import Verif.Lemmas.Angles
import Verif.Lemmas.AsRead
import Verif.Lemmas.Bindings
import Verif.Lemmas.Body
import Verif.Lemmas.Book
import Verif.Lemmas.Chain
import Verif.Lemmas.CheckName
import Verif.Lemmas.Chrono
import Verif.Lemmas.ClassTest
import Verif.Lemmas.Compute
import Verif.Lemmas.Config
import Verif.Lemmas.ConfigExact
import Verif.Lemmas.ConfigInv
import Verif.Lemmas.Construct
import Verif.Lemmas.Dims
import Verif.Lemmas.Drift
import Verif.Lemmas.DriftDer
import Verif.Lemmas.DriftDyn
import Verif.Lemmas.DriftJac
import Verif.Lemmas.Dynamics
import Verif.Lemmas.Energy
import Verif.Lemmas.Firm
import Verif.Lemmas.Fleet
import Verif.Lemmas.Fn
import Verif.Lemmas.FnGood
import Verif.Lemmas.FnRel
import Verif.Lemmas.Friction
import Verif.Lemmas.FromFile
import Verif.Lemmas.Gen
import Verif.Lemmas.GenFrame
import Verif.Lemmas.GenYaml
import Verif.Lemmas.Generate
import Verif.Lemmas.Generated
import Verif.Lemmas.Header
import Verif.Lemmas.HeaderText
import Verif.Lemmas.Inertia
import Verif.Lemmas.Instantiate
import Verif.Lemmas.Jacobian
import Verif.Lemmas.Keys
import Verif.Lemmas.KinValues
import Verif.Lemmas.Kinematics
import Verif.Lemmas.Lagrange
import Verif.Lemmas.Library
import Verif.Lemmas.LibraryPar
import Verif.Lemmas.Live
import Verif.Lemmas.Members
import Verif.Lemmas.Mount
import Verif.Lemmas.Names
import Verif.Lemmas.Near
import Verif.Lemmas.OldLayout
import Verif.Lemmas.Perturb
import Verif.Lemmas.Pipeline
import Verif.Lemmas.Posdef
import Verif.Lemmas.Quiet
import Verif.Lemmas.RegArg
import Verif.Lemmas.RegLin
import Verif.Lemmas.Registry
import Verif.Lemmas.Regressor
import Verif.Lemmas.Regulate
import Verif.Lemmas.Replace
import Verif.Lemmas.Rigid
import Verif.Lemmas.Robot
import Verif.Lemmas.RobotFile
import Verif.Lemmas.RobotFun
import Verif.Lemmas.RobotInv
import Verif.Lemmas.Rounding
import Verif.Lemmas.RoundingFn
import Verif.Lemmas.RoundingInput
import Verif.Lemmas.RoundingPar
import Verif.Lemmas.RoundingPos
import Verif.Lemmas.RoundingRun
import Verif.Lemmas.Shape
import Verif.Lemmas.Shared
import Verif.Lemmas.Shipped
import Verif.Lemmas.Smooth
import Verif.Lemmas.Start
import Verif.Lemmas.Substitute
import Verif.Lemmas.System
import Verif.Lemmas.SystemClass
import Verif.Lemmas.SystemDyn
import Verif.Lemmas.SystemFric
import Verif.Lemmas.SystemReg
import Verif.Lemmas.SystemRun
import Verif.Lemmas.SystemVal
import Verif.Lemmas.TemplateChars
import Verif.Lemmas.TestMain
import Verif.Lemmas.Text
import Verif.Lemmas.Threads
import Verif.Lemmas.Time
import Verif.Lemmas.Tune
import Verif.Lemmas.Twin
import Verif.Lemmas.Urdf
import Verif.Lemmas.User
import Verif.Lemmas.Wrapper
import Verif.Lemmas.WrapperBuf
import Verif.Lemmas.WrapperFile
import Verif.Lemmas.WrapperInv
import Verif.Lemmas.WrapperLen
import Verif.Lemmas.WrapperOver
import Verif.Lib.Damped
import Verif.Lib.DampedRight
import Verif.Lib.Decay
import Verif.Lib.Geometry
import Verif.Lib.LeastSquares
import Verif.Model.Act
import Verif.Model.Body
import Verif.Model.Chrono
import Verif.Model.ClassTest
import Verif.Model.Cli
import Verif.Model.Config
import Verif.Model.Dynamics
import Verif.Model.Gen
import Verif.Model.GenYaml
import Verif.Model.Generated
import Verif.Model.Inertia
import Verif.Model.Instantiate
import Verif.Model.Kinematics
import Verif.Model.Members
import Verif.Model.Num
import Verif.Model.Pipeline
import Verif.Model.Regressors
import Verif.Model.Robot
import Verif.Model.Rounding
import Verif.Model.RoundingPar
import Verif.Model.Shipped
import Verif.Model.ShippedUrdf
import Verif.Model.Template
import Verif.Model.TestMain
import Verif.Model.Text
import Verif.Model.Threads
import Verif.Model.Urdf
import Verif.Model.User
import Verif.Model.Wrapper
import Verif.Model.Yaml
import Verif.Props.Accuracy
import Verif.Props.Adaptive
import Verif.Props.AddFunction
import Verif.Props.AsRead
import Verif.Props.Balance
import Verif.Props.Body
import Verif.Props.Chrono
import Verif.Props.ClassTest
import Verif.Props.Cli
import Verif.Props.Config
import Verif.Props.ConfigExact
import Verif.Props.Double
import Verif.Props.Dynamics
import Verif.Props.Examples
import Verif.Props.FileOf
import Verif.Props.Flagged
import Verif.Props.Friction
import Verif.Props.Gen
import Verif.Props.GenYaml
import Verif.Props.GenYamlExact
import Verif.Props.Generated
import Verif.Props.Header
import Verif.Props.Inertia
import Verif.Props.Instantiate
import Verif.Props.Kinematics
import Verif.Props.Members
import Verif.Props.Mount
import Verif.Props.Payload
import Verif.Props.Pinv
import Verif.Props.Pipeline
import Verif.Props.RegLin
import Verif.Props.Regressor
import Verif.Props.Reload
import Verif.Props.Remount
import Verif.Props.Returned
import Verif.Props.Robot
import Verif.Props.RobotFile
import Verif.Props.RoundedInputs
import Verif.Props.RoundedUse
import Verif.Props.Rounding
import Verif.Props.Sampled
import Verif.Props.Selectivity
import Verif.Props.SelectivityExact
import Verif.Props.Sensed
import Verif.Props.Shared
import Verif.Props.Shipped
import Verif.Props.Simulation
import Verif.Props.System
import Verif.Props.TestMain
import Verif.Props.Text
import Verif.Props.Threads
import Verif.Props.Torque
import Verif.Props.Tune
import Verif.Props.Urdf
import Verif.Props.UrdfExact
import Verif.Props.Wrapper
import Verif.Props.WrapperBuf
import Verif.Props.WrapperExact
import Verif.Props.WrapperFile
import Verif.Props.WrapperLen
import Verif.Spec.Accuracy
import Verif.Spec.Adaptive
import Verif.Spec.AsRead
import Verif.Spec.Balance
import Verif.Spec.Body
import Verif.Spec.Chrono
import Verif.Spec.ClassTest
import Verif.Spec.Config
import Verif.Spec.ConfigExact
import Verif.Spec.Double
import Verif.Spec.Dynamics
import Verif.Spec.File
import Verif.Spec.Flagged
import Verif.Spec.Fleet
import Verif.Spec.Friction
import Verif.Spec.Gen
import Verif.Spec.Generate
import Verif.Spec.Generated
import Verif.Spec.Header
import Verif.Spec.Inertia
import Verif.Spec.Instantiate
import Verif.Spec.Jacobian
import Verif.Spec.Kinematics
import Verif.Spec.Measured
import Verif.Spec.Names
import Verif.Spec.ParFile
import Verif.Spec.Payload
import Verif.Spec.Pipeline
import Verif.Spec.Regressor
import Verif.Spec.Remount
import Verif.Spec.Returned
import Verif.Spec.Robot
import Verif.Spec.Rounding
import Verif.Spec.Sampled
import Verif.Spec.Selectivity
import Verif.Spec.Shared
import Verif.Spec.Shipped
import Verif.Spec.ShippedUrdf
import Verif.Spec.Simulation
import Verif.Spec.System
import Verif.Spec.TestMain
import Verif.Spec.Text
import Verif.Spec.Threads
import Verif.Spec.Torque
import Verif.Spec.Tune
import Verif.Spec.Urdf
import Verif.Spec.Wrapper
import Verif.Spec.WrapperLen
import Verif.Sym.Env
import Verif.Sym.Eqv
import Verif.Sym.Expr
import Verif.Sym.SX
