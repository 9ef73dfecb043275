import Verif.Props.C01
import Verif.Props.C02to05
import Verif.Props.C06to10
import Verif.Props.C11to15
import Verif.Props.C16to20
import Verif.Props.C21to23
import Verif.Props.C24to26
import Verif.Props.C27to30
import Verif.Props.C32
import Verif.Props.C33
import Verif.Props.C34to37
import Verif.Props.C36to39
import Verif.Props.C40to42
import Verif.Props.C43to48
import Verif.Props.C49to51
import Verif.Props.C52to55
import Verif.Props.C55
import Verif.Props.C56to58
import Verif.Props.C59to62
import Verif.Props.C63to66
import Verif.Props.C65to66
import Verif.Props.C72to73
import Verif.Props.C67
import Verif.Props.C68
import Verif.Props.C69
import Verif.Props.C70
import Verif.Props.C71
import Verif.Props.C75
import Verif.Props.C76to77
import Verif.Props.C78
import Verif.Props.C79to80
import Verif.Props.C81
import Verif.Props.C82
import Verif.Props.C82Attr
import Verif.Props.C82Map
import Verif.Props.C83
import Verif.Suite.Instructions
import Verif.Suite.Units
import Verif.Props.C84
import Verif.Props.C85
import Verif.Props.C86
import Verif.Props.C87
import Verif.Props.C88
import Verif.Props.C89
import Verif.Props.C90
import Verif.Props.C91
import Verif.Props.C92
import Verif.Props.C93
import Verif.Props.C94
import Verif.Props.C95
import Verif.Props.C96
import Verif.Props.C97
import Verif.Props.C98
import Verif.Props.C99
import Verif.Props.C100
import Verif.Props.C101
import Verif.Props.C102
import Verif.Props.C103
import Verif.Lemmas.Wide
import Verif.Props.C104
import Verif.Props.C105
import Verif.Props.C106
import Verif.Props.C107
import Verif.Props.C108
import Verif.Props.Failures
import Verif.Props.C108Words
import Verif.Props.C109
import Verif.Props.C109Interrupt
import Verif.Props.C110
import Verif.Props.C111
import Verif.Props.C73Exact
import Verif.Props.C111File
import Verif.Props.C112
import Verif.Props.C113
import Verif.Props.C106Exact
