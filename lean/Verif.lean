import Verif.Props.C01_C04
import Verif.Props.C02_C03
import Verif.Props.C18_C20
import Verif.Props.C05_C11
import Verif.Props.C12_C17
import Verif.Props.C34_C36
import Verif.Props.C37
import Verif.Props.C38
import Verif.Props.C24_C31
import Verif.Props.C41_C57
import Verif.Props.C22_C23
import Verif.Props.C32_C33
import Verif.Props.C42
import Verif.Props.C43
import Verif.Props.C44
import Verif.Props.C46_C61
import Verif.Props.C39_C40
import Verif.Props.C63_C68
import Verif.Props.C69_C73
import Verif.Props.C74
import Verif.Props.C75
import Verif.Props.C76
import Verif.Props.C77
import Verif.Props.C78
import Verif.Props.C79
import Verif.Props.C80
import Verif.Props.C81
import Verif.Props.C82
import Verif.Props.C83
import Verif.Props.C84
import Verif.Props.C85
import Verif.Props.C48
import Verif.Props.C86
import Verif.Props.C87
import Verif.Props.C88_C90
import Verif.Props.C91_C92
import Verif.Props.C93
import Verif.Props.C94
import Verif.Props.C95
import Verif.Props.C96
import Verif.Props.C97
import Verif.Props.C98
import Verif.Props.C99
import Verif.Props.C100
import Verif.Props.C101
import Verif.Props.C102
import Verif.Props.C103
