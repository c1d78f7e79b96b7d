import Verif.Model.Accessors
import Verif.Model.Albedo
import Verif.Model.Checks
import Verif.Model.CommandLine
import Verif.Model.Config
import Verif.Model.Consts
import Verif.Model.Core
import Verif.Model.Densification
import Verif.Model.Divisions
import Verif.Model.FieldPlot
import Verif.Model.Float
import Verif.Model.Grid
import Verif.Model.GridInfo
import Verif.Model.Heat
import Verif.Model.IO
import Verif.Model.Init
import Verif.Model.Input
import Verif.Model.Kernel
import Verif.Model.Loaded
import Verif.Model.Maps
import Verif.Model.Nan
import Verif.Model.Node
import Verif.Model.Num
import Verif.Model.Penetrating
import Verif.Model.Percolation
import Verif.Model.Prepared
import Verif.Model.Preprocess
import Verif.Model.Profile
import Verif.Model.Program
import Verif.Model.RadCor
import Verif.Model.Real
import Verif.Model.RealTrig
import Verif.Model.RecordTime
import Verif.Model.Refreezing
import Verif.Model.Result
import Verif.Model.Secant
import Verif.Model.Select
import Verif.Model.Setup
import Verif.Model.Shading
import Verif.Model.Stake
import Verif.Model.StakeFiles
import Verif.Model.StaticFile
import Verif.Model.SubArea
import Verif.Model.SurfaceTemp
import Verif.Model.Switches
import Verif.Model.TextTime
import Verif.Model.Utilities
import Verif.Spec.Budget
import Verif.Spec.Capped
import Verif.Spec.Column
import Verif.Spec.Energy
import Verif.Spec.HeatUnit
import Verif.Spec.IceBalance
import Verif.Spec.Numbers
import Verif.Spec.Ops
import Verif.Spec.Output
import Verif.Spec.Phys
import Verif.Spec.Physical
import Verif.Spec.Progress
import Verif.Spec.Radiation
import Verif.Spec.Rounded
import Verif.Spec.Stretch
import Verif.Spec.Sun
import Verif.Spec.Termination
import Verif.Spec.Trunc
import Verif.Spec.Warm
import Verif.Lemmas.Arith
import Verif.Lemmas.Basic
import Verif.Lemmas.Binary
import Verif.Lemmas.Budget
import Verif.Lemmas.Capped
import Verif.Lemmas.Closed
import Verif.Lemmas.Collect
import Verif.Lemmas.Config
import Verif.Lemmas.Correct
import Verif.Lemmas.Densify
import Verif.Lemmas.Erase
import Verif.Lemmas.Example
import Verif.Lemmas.ExampleIO
import Verif.Lemmas.File
import Verif.Lemmas.FloatErr
import Verif.Lemmas.Frame
import Verif.Lemmas.Fuel
import Verif.Lemmas.Grid
import Verif.Lemmas.GridFuel
import Verif.Lemmas.Heat
import Verif.Lemmas.HeatFloat
import Verif.Lemmas.HeatMax
import Verif.Lemmas.HeatUnit
import Verif.Lemmas.IO
import Verif.Lemmas.Idle
import Verif.Lemmas.Init
import Verif.Lemmas.Kernel
import Verif.Lemmas.MassErr
import Verif.Lemmas.Melt
import Verif.Lemmas.NanAttr
import Verif.Lemmas.NanFlux
import Verif.Lemmas.NanGrid
import Verif.Lemmas.NanHom
import Verif.Lemmas.NanModules
import Verif.Lemmas.NanStep
import Verif.Lemmas.Penetrate
import Verif.Lemmas.Percolation
import Verif.Lemmas.Physical
import Verif.Lemmas.Progress
import Verif.Lemmas.ProgressStep
import Verif.Lemmas.Quiet
import Verif.Lemmas.RadCor
import Verif.Lemmas.Refreeze
import Verif.Lemmas.Remesh
import Verif.Lemmas.RemeshAll
import Verif.Lemmas.Rounded
import Verif.Lemmas.Shading
import Verif.Lemmas.Stages
import Verif.Lemmas.StepFuel
import Verif.Lemmas.StepInv
import Verif.Lemmas.Stretch
import Verif.Lemmas.Sum
import Verif.Lemmas.WF
import Verif.Lemmas.Warm
import Verif.Lemmas.WithSolver
import Verif.Props.C01
import Verif.Props.C02
import Verif.Props.C03
import Verif.Props.C04
import Verif.Props.C05
import Verif.Props.C06
import Verif.Props.C07
import Verif.Props.C08
import Verif.Props.C09
import Verif.Props.C10
import Verif.Props.C100
import Verif.Props.C101
import Verif.Props.C102
import Verif.Props.C103
import Verif.Props.C104
import Verif.Props.C105
import Verif.Props.C106
import Verif.Props.C107
import Verif.Props.C108
import Verif.Props.C109
import Verif.Props.C11
import Verif.Props.C110
import Verif.Props.C111
import Verif.Props.C112
import Verif.Props.C113
import Verif.Props.C114
import Verif.Props.C115
import Verif.Props.C116
import Verif.Props.C117
import Verif.Props.C118
import Verif.Props.C119
import Verif.Props.C12
import Verif.Props.C120
import Verif.Props.C121
import Verif.Props.C122
import Verif.Props.C123
import Verif.Props.C124
import Verif.Props.C125
import Verif.Props.C126
import Verif.Props.C127
import Verif.Props.C128
import Verif.Props.C129
import Verif.Props.C13
import Verif.Props.C130
import Verif.Props.C131
import Verif.Props.C132
import Verif.Props.C133
import Verif.Props.C134
import Verif.Props.C135
import Verif.Props.C136
import Verif.Props.C137
import Verif.Props.C138
import Verif.Props.C139
import Verif.Props.C14
import Verif.Props.C15
import Verif.Props.C16
import Verif.Props.C17
import Verif.Props.C18
import Verif.Props.C19
import Verif.Props.C20
import Verif.Props.C21
import Verif.Props.C22
import Verif.Props.C23
import Verif.Props.C24
import Verif.Props.C25
import Verif.Props.C26
import Verif.Props.C27
import Verif.Props.C28
import Verif.Props.C29
import Verif.Props.C30
import Verif.Props.C31
import Verif.Props.C32
import Verif.Props.C33
import Verif.Props.C34
import Verif.Props.C35
import Verif.Props.C36
import Verif.Props.C37
import Verif.Props.C38
import Verif.Props.C39
import Verif.Props.C40
import Verif.Props.C41
import Verif.Props.C42
import Verif.Props.C43
import Verif.Props.C44
import Verif.Props.C45
import Verif.Props.C46
import Verif.Props.C47
import Verif.Props.C48
import Verif.Props.C49
import Verif.Props.C50
import Verif.Props.C51
import Verif.Props.C52
import Verif.Props.C53
import Verif.Props.C54
import Verif.Props.C55
import Verif.Props.C56
import Verif.Props.C57
import Verif.Props.C58
import Verif.Props.C59
import Verif.Props.C60
import Verif.Props.C61
import Verif.Props.C62
import Verif.Props.C63
import Verif.Props.C64
import Verif.Props.C65
import Verif.Props.C66
import Verif.Props.C67
import Verif.Props.C68
import Verif.Props.C69
import Verif.Props.C70
import Verif.Props.C71
import Verif.Props.C72
import Verif.Props.C73
import Verif.Props.C74
import Verif.Props.C75
import Verif.Props.C76
import Verif.Props.C77
import Verif.Props.C78
import Verif.Props.C79
import Verif.Props.C80
import Verif.Props.C81
import Verif.Props.C82
import Verif.Props.C83
import Verif.Props.C84
import Verif.Props.C85
import Verif.Props.C86
import Verif.Props.C87
import Verif.Props.C88
import Verif.Props.C89
import Verif.Props.C90
import Verif.Props.C91
import Verif.Props.C92
import Verif.Props.C93
import Verif.Props.C94
import Verif.Props.C95
import Verif.Props.C96
import Verif.Props.C97
import Verif.Props.C98
import Verif.Props.C99
import Verif.Validation.Numeric
import Verif.Validation.Tests
