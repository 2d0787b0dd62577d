import Verif.Model.Assy
import Verif.Model.BayPlot
import Verif.Model.Defaults
import Verif.Model.Dev
import Verif.Model.MultiForce
import Verif.Model.MultiPlot
import Verif.Model.ShellPlot
import Verif.Model.TStiff
import Verif.Proofs.AeroMean
import Verif.Proofs.AssyEnergy
import Verif.Proofs.AssyFext
import Verif.Proofs.AssyLoads
import Verif.Proofs.AssyMass
import Verif.Proofs.AssyRigid
import Verif.Proofs.AssyTotal
import Verif.Proofs.BayLoop
import Verif.Proofs.BayRigid
import Verif.Proofs.BayTotal
import Verif.Proofs.Blades
import Verif.Proofs.Definite
import Verif.Proofs.Dev
import Verif.Proofs.Exchange
import Verif.Proofs.ExchangeAll
import Verif.Proofs.Flat
import Verif.Proofs.Freer
import Verif.Proofs.FreerBay
import Verif.Proofs.Indep
import Verif.Proofs.IndepTab
import Verif.Proofs.Legendre
import Verif.Proofs.LowTerms
import Verif.Proofs.Meet
import Verif.Proofs.MirBay
import Verif.Proofs.Mirror
import Verif.Proofs.MirrorAll
import Verif.Proofs.Modes
import Verif.Proofs.MovedBay
import Verif.Proofs.Nest
import Verif.Proofs.Renumber
import Verif.Proofs.Rigid
import Verif.Proofs.Ring
import Verif.Proofs.Rotate
import Verif.Proofs.Signed
import Verif.Proofs.StateBay
import Verif.Proofs.Stiffer
import Verif.Proofs.TAero
import Verif.Proofs.TFit
import Verif.Proofs.TGrid
import Verif.Proofs.TLoads
import Verif.Proofs.TState
import Verif.Proofs.UnitsAssy
import Verif.Proofs.UnitsBay
import Verif.Proofs.UnitsBayOut
import Verif.Proofs.UnitsBuild
import Verif.Proofs.UnitsConn
import Verif.Proofs.UnitsField
import Verif.Proofs.UnitsMulti
import Verif.Proofs.UnitsNum
import Verif.Proofs.UnitsShell
import Verif.Proofs.UnitsVal
import Verif.Props.C01
import Verif.Props.C02
import Verif.Props.C03
import Verif.Props.C04
import Verif.Props.C05
import Verif.Props.C06
import Verif.Props.C07
import Verif.Props.C08
import Verif.Props.C09
import Verif.Props.C10
import Verif.Props.C100
import Verif.Props.C101
import Verif.Props.C102
import Verif.Props.C103
import Verif.Props.C104
import Verif.Props.C105
import Verif.Props.C106
import Verif.Props.C107
import Verif.Props.C108
import Verif.Props.C109
import Verif.Props.C11
import Verif.Props.C110
import Verif.Props.C111
import Verif.Props.C111Bay
import Verif.Props.C112
import Verif.Props.C112Bay
import Verif.Props.C113
import Verif.Props.C114
import Verif.Props.C12
import Verif.Props.C13
import Verif.Props.C14
import Verif.Props.C15
import Verif.Props.C16
import Verif.Props.C16Shell
import Verif.Props.C17
import Verif.Props.C18
import Verif.Props.C19
import Verif.Props.C20
import Verif.Props.C21
import Verif.Props.C22
import Verif.Props.C23
import Verif.Props.C24
import Verif.Props.C25
import Verif.Props.C25Assembly
import Verif.Props.C26
import Verif.Props.C27
import Verif.Props.C28
import Verif.Props.C29
import Verif.Props.C30
import Verif.Props.C31
import Verif.Props.C32
import Verif.Props.C33
import Verif.Props.C34
import Verif.Props.C35
import Verif.Props.C36
import Verif.Props.C37
import Verif.Props.C38
import Verif.Props.C39
import Verif.Props.C40
import Verif.Props.C40Conn
import Verif.Props.C41
import Verif.Props.C42
import Verif.Props.C43
import Verif.Props.C44
import Verif.Props.C44Panel
import Verif.Props.C45
import Verif.Props.C46
import Verif.Props.C47
import Verif.Props.C47Fields
import Verif.Props.C48
import Verif.Props.C49
import Verif.Props.C50
import Verif.Props.C51
import Verif.Props.C52
import Verif.Props.C53
import Verif.Props.C54
import Verif.Props.C55
import Verif.Props.C56
import Verif.Props.C57
import Verif.Props.C58
import Verif.Props.C59
import Verif.Props.C60
import Verif.Props.C61
import Verif.Props.C62
import Verif.Props.C63
import Verif.Props.C64
import Verif.Props.C65
import Verif.Props.C66
import Verif.Props.C66Energy
import Verif.Props.C67
import Verif.Props.C68
import Verif.Props.C69
import Verif.Props.C70
import Verif.Props.C71
import Verif.Props.C72
import Verif.Props.C73
import Verif.Props.C74
import Verif.Props.C75
import Verif.Props.C76
import Verif.Props.C77
import Verif.Props.C78
import Verif.Props.C78Ready
import Verif.Props.C79
import Verif.Props.C80
import Verif.Props.C80Ready
import Verif.Props.C81
import Verif.Props.C81Ready
import Verif.Props.C82
import Verif.Props.C83
import Verif.Props.C84
import Verif.Props.C85
import Verif.Props.C86
import Verif.Props.C87
import Verif.Props.C88
import Verif.Props.C89
import Verif.Props.C90
import Verif.Props.C91
import Verif.Props.C92
import Verif.Props.C93
import Verif.Props.C94
import Verif.Props.C95
import Verif.Props.C96
import Verif.Props.C97
import Verif.Props.C98
import Verif.Props.C99
import Verif.Spec.Accept
import Verif.Spec.Added
import Verif.Spec.Assy
import Verif.Spec.BayForce
import Verif.Spec.BayParts
import Verif.Spec.BayPlan
import Verif.Spec.Exchange
import Verif.Spec.ExchangeAll
import Verif.Spec.Flange
import Verif.Spec.Flutter
import Verif.Spec.Freer
import Verif.Spec.FreerBay
import Verif.Spec.Kernel
import Verif.Spec.Legendre
import Verif.Spec.Meet
import Verif.Spec.MirBay
import Verif.Spec.Mirror
import Verif.Spec.MirrorAll
import Verif.Spec.Modes
import Verif.Spec.MovedBay
import Verif.Spec.Near
import Verif.Spec.Nest
import Verif.Spec.Printed
import Verif.Spec.Renumber
import Verif.Spec.Rigid
import Verif.Spec.Rotate
import Verif.Spec.StateBay
import Verif.Spec.Static
import Verif.Spec.Stiffer
import Verif.Spec.Support
import Verif.Spec.TStiff
import Verif.Spec.Units
import Verif.Spec.UnitsAssy
import Verif.Spec.UnitsBay
import Verif.Spec.UnitsMulti
import Verif.Spec.UnitsShell
