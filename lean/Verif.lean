import Verif.Lemmas.VectorsRef
import Verif.Lemmas.Vectors
import Verif.Spec.Announced
import Verif.Basic
import Verif.Core
import Verif.FMI2
import Verif.FMI3
import Verif.Models.BouncingBall
import Verif.Models.Dahlquist
import Verif.Models.Stair
import Verif.Models.VanDerPol
import Verif.Models.Roberts
import Verif.Models.Resource
import Verif.Models.Clocks
import Verif.Models.StateSpace
import Verif.Models.Feedthrough
import Verif.RefFMUs
import Verif.History2
import Verif.History3
import Verif.XRat
import Verif.Spec.Modes2
import Verif.Spec.Modes3
import Verif.Lemmas.Hoare
import Verif.Lemmas.ModelEff
import Verif.Lemmas.Api2
import Verif.Lemmas.Api3
import Verif.Lemmas.Hist2
import Verif.Lemmas.Hist3
import Verif.Spec.Reach
import Verif.Lemmas.Modes2
import Verif.Lemmas.Modes3
import Verif.Lemmas.Reach2
import Verif.Lemmas.ReadAnyMode
import Verif.Examples
import Verif.Props.C01
import Verif.Props.C02
import Verif.Props.C03
import Verif.Props.C04
import Verif.Props.C05
import Verif.Props.C06
import Verif.Props.C53
import Verif.Spec.Uses
import Verif.Lemmas.Rel
import Verif.Lemmas.RelBase
import Verif.Lemmas.RelComp
import Verif.Lemmas.RelBouncingBall
import Verif.Lemmas.RelClocks
import Verif.Lemmas.RelDahlquist
import Verif.Lemmas.RelFeedthrough
import Verif.Lemmas.RelResource
import Verif.Lemmas.RelRoberts
import Verif.Lemmas.RelStair
import Verif.Lemmas.RelStateSpace
import Verif.Lemmas.RelVanDerPol
import Verif.Lemmas.RelRef
import Verif.Lemmas.RelHist2
import Verif.Lemmas.RelHist3
import Verif.Lemmas.Restore
import Verif.Props.C07
import Verif.Props.C08
import Verif.Lemmas.Reach3
import Verif.Props.C50
import Verif.Props.C47
import Verif.Props.C48
import Verif.Props.C23
import Verif.Props.C10
import Verif.Props.C18
import Verif.Lemmas.TimeVar
import Verif.Lemmas.NoEvent
import Verif.Lemmas.Ode
import Verif.Lemmas.DoStep
import Verif.Props.C24
import Verif.Props.C25
import Verif.Spec.Observe
import Verif.Lemmas.OdeRef
import Verif.Lemmas.Ready
import Verif.Lemmas.Keep
import Verif.Spec.Session
import Verif.Lemmas.Grid
import Verif.Props.C19
import Verif.Props.C51
import Verif.Lemmas.Fuel
import Verif.Spec.Passive
import Verif.Lemmas.Views
import Verif.Lemmas.Reading
import Verif.Lemmas.Traj
import Verif.Lemmas.Readable
import Verif.Props.C30
import Verif.Importer.Uri
import Verif.Importer.LogBuffer
import Verif.Importer.Memory
import Verif.Importer.Wrapper
import Verif.Spec.Uri
import Verif.Spec.LogText
import Verif.Lemmas.Uri
import Verif.Lemmas.LogBuffer
import Verif.Props.C41
import Verif.Props.C42
import Verif.Props.C43
import Verif.Props.C44
import Verif.Props.C52
import Verif.Lemmas.Resource
import Verif.Props.C40
import Verif.Props.C54
import Verif.Props.C55
import Verif.Lemmas.Fixed
import Verif.Lemmas.FeedViews
import Verif.Props.C49
import Verif.Lemmas.Uniform
import Verif.Spec.Sequence
import Verif.Lemmas.Sequence
import Verif.Props.C14
import Verif.Lemmas.SameReads
import Verif.Lemmas.Count
import Verif.Props.C16
import Verif.Props.C15
import Verif.Spec.Elements
import Verif.Spec.SameReads
import Verif.Props.C36
import Verif.Spec.Independent
import Verif.Lemmas.Lens
import Verif.Lemmas.LensFeed
import Verif.Lemmas.LensReads
import Verif.Props.C12
import Verif.Spec.Held
import Verif.Lemmas.Held
import Verif.Lemmas.HeldRef
import Verif.Props.C13
import Verif.Spec.Equations
import Verif.Props.C17
import Verif.Spec.Derivative
import Verif.Lemmas.Deriv
import Verif.Lemmas.DerivRef
import Verif.Props.C33
import Verif.Props.C34
import Verif.Props.C35
import Verif.Spec.StateSpace
import Verif.Lemmas.StateSpace
import Verif.Props.C37
import Verif.Spec.Endpoint
import Verif.Lemmas.Reached
import Verif.Lemmas.Chain
import Verif.Lemmas.StopTime
import Verif.Lemmas.ExReach
import Verif.Props.C20
import Verif.Props.C22
import Verif.Lemmas.XRatLaws
import Verif.Lemmas.NoHang
import Verif.Props.C26
import Verif.Lemmas.Cut
import Verif.Props.C21
import Verif.Spec.Shows
import Verif.Lemmas.Shows
import Verif.Lemmas.StairRun
import Verif.Props.C32
import Verif.Spec.Ball
import Verif.Lemmas.DataInv
import Verif.Lemmas.Ball
import Verif.Props.C31
import Verif.Spec.Handled
import Verif.Lemmas.Machine
import Verif.Lemmas.BallRun
import Verif.Props.C57
import Verif.Spec.Schedule
import Verif.Lemmas.Lockstep
import Verif.Lemmas.Prepared
import Verif.Lemmas.Snap
import Verif.Lemmas.ExTwin
import Verif.Props.C28
import Verif.Props.C46
import Verif.Spec.Crossing
import Verif.Props.C29
import Verif.Importer.Euler
import Verif.Lemmas.EulerLaws
import Verif.Lemmas.EulerApi
import Verif.Spec.Integrate
import Verif.Props.C27
import Verif.Spec.Clocks
import Verif.Lemmas.Track
import Verif.Lemmas.ClocksRun
import Verif.Props.C38
import Verif.Preempt
import Verif.Lemmas.Preempt
import Verif.Props.C39
import Verif.Spec.WellFormed
import Verif.Lemmas.NoUb
import Verif.Lemmas.NoUbApi
import Verif.Lemmas.NoUbRef
import Verif.Lemmas.Store
import Verif.Lemmas.NoUbReach
import Verif.Props.C45
import Verif.Spec.Reading
import Verif.Lemmas.ReadRel
import Verif.Lemmas.NoSet
import Verif.Lemmas.RelRobertsFixed
import Verif.Props.C11
import Verif.Spec.Restart
import Verif.Lemmas.Restart
import Verif.Props.C09
import Verif.Spec.OutputDerivative
import Verif.Lemmas.OutDeriv
import Verif.Props.C58
import Verif.Spec.EventInfo
import Verif.Lemmas.EventInfo
import Verif.Props.C59
import Verif.Spec.Euler
import Verif.Props.C60
import Verif.Spec.Legal
import Verif.Lemmas.Lawful
import Verif.Lemmas.Legal
import Verif.Lemmas.Legal2
import Verif.Lemmas.Legal3
import Verif.Lemmas.Accept
import Verif.Props.C61
import Verif.Props.C62
import Verif.Spec.Callbacks
import Verif.Spec.Protocol
import Verif.Lemmas.Protocol
import Verif.Props.C63
import Verif.Lemmas.Ends
import Verif.Lemmas.Success
import Verif.Props.C64
import Verif.Importer.CoSim
import Verif.Importer.Programs
import Verif.Spec.Simulation
import Verif.Lemmas.Driver
import Verif.Lemmas.Programs
import Verif.Props.C65
import Verif.Importer.ModelExchange
import Verif.Spec.SimulationME
import Verif.Lemmas.DriverME
import Verif.Props.C66
import Verif.Importer.Stepping
import Verif.Spec.Marching
import Verif.Lemmas.Marching
import Verif.Props.C67
import Verif.Importer.Synchronous
import Verif.Spec.Synchronous
import Verif.Lemmas.Synchronous
import Verif.Props.C68
import Verif.Props.C28Resource
import Verif.Spec.StartValues
import Verif.Lemmas.StartValues
import Verif.Props.C69
import Verif.Spec.Dependencies
import Verif.Props.C70
import Verif.Importer.BinaryPath
import Verif.Spec.BinaryPath
import Verif.Props.C71
import Verif.Importer.Jacobian
import Verif.Lemmas.Jacobian
import Verif.Props.C72
import Verif.Importer.Reconfiguration
import Verif.Importer.Lifecycle
import Verif.Spec.Lifecycle
import Verif.Lemmas.Lifecycle
import Verif.Props.C73
import Verif.Props.C74
import Verif.Mem
import Verif.Spec.Mem
import Verif.Lemmas.Mem
import Verif.Lemmas.MemCalls
import Verif.Props.C75
import Verif.Lemmas.StateSpaceDims
import Verif.Lemmas.StateSpaceRun
import Verif.Lemmas.StateSpaceRead
import Verif.Spec.LinearSystem
import Verif.Props.C76
import Verif.Props.C37Total
import Verif.Importer.StateSpace
import Verif.Lemmas.StateSpaceProgram
import Verif.Props.C65StateSpace
import Verif.Lemmas.DriverRefused
import Verif.Props.C65Refused
import Verif.Spec.LegalStateSpace
import Verif.Lemmas.StateSpaceLegal
import Verif.Props.C61StateSpace
import Verif.Lemmas.StateSpaceSuccess
import Verif.Props.C64StateSpace
import Verif.Props.C12StateSpace
import Verif.Importer.Threaded
import Verif.Spec.Threaded
import Verif.Lemmas.Threaded
import Verif.Lemmas.ThreadedInv
import Verif.Lemmas.ThreadedOnce
import Verif.Props.C77
import Verif.Lemmas.Frozen
import Verif.Lemmas.Solved
import Verif.Props.C78
import Verif.Props.C78Meant
import Verif.Lemmas.Recorded
import Verif.Spec.Capabilities
import Verif.Props.C79
import Verif.Spec.Updates
import Verif.Lemmas.Updates
import Verif.Props.C80
import Verif.Importer.Inputs
import Verif.Spec.Inputs
import Verif.Lemmas.DriverInputs
import Verif.Props.C66Inputs
import Verif.Importer.StateSpaceME
import Verif.Lemmas.DriverStateSpace
import Verif.Props.C66StateSpace
import Verif.Lemmas.DriverStateSpaceX
import Verif.Props.C78StateSpace
import Verif.Props.C46StateSpace
import Verif.Props.C81
import Verif.Spec.FeedthroughRows
import Verif.Lemmas.FeedthroughRun
import Verif.Props.C81ME
import Verif.Lemmas.Fed
import Verif.Spec.ExitStatus
import Verif.Lemmas.ExitStatus
import Verif.Lemmas.ExitStatusME
import Verif.Props.C82
import Verif.Props.C82ME
import Verif.Props.C82StateSpace
import Verif.Importer.OutputFile
import Verif.Spec.Csv
import Verif.Lemmas.OutputFile
import Verif.Props.C83
import Verif.Importer.ResourceLocation
import Verif.Lemmas.ResourceRun
import Verif.Props.C84
import Verif.Chars
import Verif.Importer.CallLog
import Verif.Importer.CallLogWrappers
import Verif.Spec.CallLog
import Verif.Spec.Signatures
import Verif.Lemmas.CallLog
import Verif.Props.C85
import Verif.Spec.Tokens
import Verif.Importer.ImportLibrary
import Verif.Props.C86
import Verif.Props.C87
import Verif.Importer.Messages
import Verif.Spec.Messages
import Verif.Lemmas.Messages
import Verif.Props.C88
import Verif.Props.C65RefusedStair
import Verif.Props.C65RefusedStateSpace
import Verif.Props.C89
import Verif.Spec.ClockedVariables
import Verif.Props.C70Indicators
import Verif.Props.C90
import Verif.Spec.Lint
import Verif.Lemmas.Lint
import Verif.Tools.Lint
import Verif.Tools.Merge
import Verif.Spec.Merge
import Verif.Lemmas.Merge
import Verif.Props.C91
import Verif.Tools.Build
import Verif.Spec.Release
import Verif.Props.C91Release
import Verif.Props.C92
import Verif.Spec.Stairs
import Verif.Lemmas.Stairs
import Verif.Props.C92ME
import Verif.Lemmas.StairStuck
import Verif.Lemmas.StairClimb
import Verif.Props.C92Grid
