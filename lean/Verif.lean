import Verif.Model.ModelData
import Verif.Props.C01_C04
import Verif.Props.C05_C12
import Verif.Props.C13_C20
import Verif.Props.C21_C28
import Verif.Props.C29_C30
import Verif.Props.C32_C37
import Verif.Props.C38_C39
import Verif.Props.C41_C45
import Verif.Props.C46_C50
import Verif.Props.C51
import Verif.Props.C52_C57
import Verif.Props.C58_C64
import Verif.Props.C65_C69
import Verif.Props.C71
import Verif.Props.C72
import Verif.Props.C73
import Verif.Props.C74
import Verif.IEEE.IntArith
import Verif.Spec.Format
import Verif.Spec.Same
import Verif.Lemmas.Same
import Verif.Props.C75
import Verif.Props.C76
import Verif.Props.C77_C78
import Verif.Props.C79_C80
import Verif.Spec.Eval
import Verif.Props.C81_C82
import Verif.IEEE.Round
import Verif.Props.C83_C84
import Verif.Props.C85_C87
import Verif.Props.C88_C91
import Verif.Props.C92
import Verif.Props.C93
import Verif.Props.C94
import Verif.Model.SetValues
import Verif.Model.BinomialFull
import Verif.Model.Conc
import Verif.Props.C95
import Verif.Props.C96
import Verif.IEEE.Error
import Verif.Spec.Rounding
import Verif.Lemmas.Rounding
import Verif.Lemmas.RoundAct
import Verif.Lemmas.RoundSoftmax
import Verif.Props.C97_C99
import Verif.Props.C100
import Verif.Props.C101_C102
import Verif.Props.C103
import Verif.Model.Examples
import Verif.Lemmas.Examples
import Verif.Lemmas.ExamplesRun
import Verif.Lemmas.ExamplesMain
import Verif.Props.C104_C105
import Verif.Props.C106
import Verif.Props.C107
import Verif.Props.C108
import Verif.Props.C109
import Verif.Props.C110
import Verif.Props.C111_C113
import Verif.Model.Tests
import Verif.Lemmas.Tests
import Verif.Lemmas.TestsF64
import Verif.Lemmas.TestsRun
import Verif.Lemmas.TestsRun2
import Verif.Props.C114_C118
import Verif.Props.C119_C121
import Verif.Props.C122
import Verif.Props.C123
import Verif.Props.C124
import Verif.Props.C125_C127
import Verif.Props.C128
import Verif.Props.C129_C130
import Verif.Props.C131
import Verif.Props.C132
import Verif.Props.C133
import Verif.Props.C134
import Verif.Props.C135
import Verif.Props.C136
import Verif.Props.C137
import Verif.Props.C138
import Verif.Props.C139
import Verif.Props.C140
import Verif.Props.C141
import Verif.Props.C142
import Verif.Props.C143
import Verif.Props.C144
import Verif.Props.C145
import Verif.Props.C146
import Verif.Props.C147
import Verif.Props.C148
import Verif.Props.C149
import Verif.Props.C150
import Verif.Props.C151
import Verif.Props.C152
import Verif.Props.C153
import Verif.Props.C154
import Verif.Props.C155
import Verif.Props.C156
import Verif.Props.C157
import Verif.Props.C158
import Verif.Props.C159
import Verif.Props.C160
import Verif.Props.C161
import Verif.Props.C162
import Verif.Props.C163
import Verif.Props.C164
import Verif.Props.C165
import Verif.Props.C166
import Verif.IEEE.Libm
import Verif.Lemmas.ExamplesFit
