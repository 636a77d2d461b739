import Verif.Model.Stencils
import Mathlib.Data.Rat.Cast.Order

/-!
# Model of the stencils given by decimal literals: D2Q777

The literals are the decimal numbers of the source text, as exact rationals (the conversion of a literal to the nearest `double` is
not modelled).  The tables are written in blocks of 28 entries; the table is the concatenation of the blocks.
-/

namespace NATriuM

namespace D2Q777

/-- The decimal literals of `D2Q777::makeWeights`, `P/stencils/D2Q777.cpp:39-821`, entries 0…27 -/
def weightBlock0 : List (ℚ) :=
  [0.023980924697233293, 4.788226925310768e-8, 3.540415162204691e-7, 2.1881898954330506e-6, 1.1365231622392648e-5,
   4.983526328859412e-5, 0.00018522095728571976, 0.0005854959047431559, 0.0036398949547297864, 0.0071904939239815675,
   0.012190277845267687, 0.017757826457009407, 0.022246698542659583, 0.022246698542659583, 0.017757826457009407,
   0.012190277845267687, 0.0071904939239815675, 0.0036398949547297864, 0.0015787107058704297, 0.0005854959047431559,
   0.00018522095728571976, 4.983526328859412e-5, 1.1365231622392648e-5, 2.1881898954330506e-6, 3.540415162204691e-7,
   4.788226925310768e-8, 5.380013174036875e-9, 4.986665726821618e-10]

/-- The decimal literals of `D2Q777::makeWeights`, `P/stencils/D2Q777.cpp:39-821`, entries 28…55 -/
def weightBlock1 : List (ℚ) :=
  [5.380013174036875e-9, 4.986665726821618e-10, 0.0015787107058704297, 0.0005431546554285068, 1.0543333293567343e-5,
   2.029946783637127e-6, 3.284383309811064e-7, 4.44195719331557e-8, 4.990947294544651e-9, 4.626045515684884e-10,
   4.626045515684884e-10, 4.44195719331557e-8, 3.284383309811064e-7, 2.029946783637127e-6, 1.0543333293567343e-5,
   4.623133149253965e-5, 0.00017182635167498888, 0.0005431546554285068, 0.0014645432402204544, 0.003376669032039592,
   0.006670499687532843, 0.011308714730513286, 0.01647363548110097, 4.623133149253965e-5, 0.00017182635167498888,
   0.0014645432402204544, 0.003376669032039592, 4.626045515684884e-10]

/-- The decimal literals of `D2Q777::makeWeights`, `P/stencils/D2Q777.cpp:39-821`, entries 56…83 -/
def weightBlock2 : List (ℚ) :=
  [4.990947294544651e-9, 4.44195719331557e-8, 3.284383309811064e-7, 2.029946783637127e-6, 1.0543333293567343e-5,
   4.623133149253965e-5, 0.00017182635167498888, 0.0005431546554285068, 0.020637886249026544, 0.0014645432402204544,
   0.006670499687532843, 0.011308714730513286, 0.01647363548110097, 0.020637886249026544, 0.022246698542659583,
   0.020637886249026544, 0.01647363548110097, 0.011308714730513286, 0.006670499687532843, 0.003376669032039592,
   0.022246698542659583, 4.990947294544651e-9, 0.01647363548110097, 0.020637886249026544, 4.990947294544651e-9,
   4.44195719331557e-8, 3.284383309811064e-7, 2.029946783637127e-6]

/-- The decimal literals of `D2Q777::makeWeights`, `P/stencils/D2Q777.cpp:39-821`, entries 84…111 -/
def weightBlock3 : List (ℚ) :=
  [1.0543333293567343e-5, 4.626045515684884e-10, 0.00017182635167498888, 0.0005431546554285068, 0.0014645432402204544,
   0.003376669032039592, 0.006670499687532843, 4.623133149253965e-5, 0.011308714730513286, 0.005324546273938166,
   0.002695334885701587, 0.0011690320992461265, 0.0004335585386712883, 0.00013715574596089003, 1.6203502120401847e-6,
   8.41593113452579e-6, 2.621670299621478e-7, 3.545672397956289e-8, 3.9838889236824726e-9, 0.009026876201482124,
   3.69029121308373e-5, 0.013149634739216058, 0.002695334885701587, 0.017757826457009407, 0.01647363548110097,
   0.013149634739216058, 0.009026876201482124, 0.005324546273938166]

/-- The decimal literals of `D2Q777::makeWeights`, `P/stencils/D2Q777.cpp:39-821`, entries 112…139 -/
def weightBlock4 : List (ℚ) :=
  [3.6926159309541286e-10, 0.0004335585386712883, 0.00013715574596089003, 3.69029121308373e-5, 8.41593113452579e-6,
   1.6203502120401847e-6, 2.621670299621478e-7, 3.545672397956289e-8, 0.01647363548110097, 3.6926159309541286e-10,
   0.0004335585386712883, 3.545672397956289e-8, 3.9838889236824726e-9, 3.6926159309541286e-10, 3.9838889236824726e-9,
   3.545672397956289e-8, 2.621670299621478e-7, 1.6203502120401847e-6, 8.41593113452579e-6, 3.69029121308373e-5,
   0.00013715574596089003, 0.0004335585386712883, 0.0011690320992461265, 0.002695334885701587, 0.005324546273938166,
   3.9838889236824726e-9, 0.009026876201482124, 0.01647363548110097]

/-- The decimal literals of `D2Q777::makeWeights`, `P/stencils/D2Q777.cpp:39-821`, entries 140…167 -/
def weightBlock5 : List (ℚ) :=
  [0.017757826457009407, 0.01647363548110097, 0.013149634739216058, 0.009026876201482124, 0.005324546273938166,
   0.002695334885701587, 0.0011690320992461265, 0.00013715574596089003, 3.69029121308373e-5, 8.41593113452579e-6,
   1.6203502120401847e-6, 2.621670299621478e-7, 0.013149634739216058, 3.6926159309541286e-10, 0.0011690320992461265,
   9.415378933823506e-5, 2.4340102536773432e-8, 1.7997072698307126e-7, 1.1123275328333613e-6, 5.777313969413904e-6,
   2.533287242464506e-5, 2.734834299791471e-9, 0.00029762646128941384, 0.0008025095939723926, 0.0018502760584066763,
   0.0036551600859727135, 0.006196711587271222, 0.009026876201482124]

/-- The decimal literals of `D2Q777::makeWeights`, `P/stencils/D2Q777.cpp:39-821`, entries 168…195 -/
def weightBlock6 : List (ℚ) :=
  [0.011308714730513286, 0.012190277845267687, 0.011308714730513286, 0.009026876201482124, 0.006196711587271222,
   0.0036551600859727135, 0.0018502760584066763, 0.0008025095939723926, 0.00029762646128941384, 9.415378933823506e-5,
   2.533287242464506e-5, 5.777313969413904e-6, 1.1123275328333613e-6, 1.7997072698307126e-7, 2.4340102536773432e-8,
   2.734834299791471e-9, 2.734834299791471e-9, 2.5348830997514673e-10, 2.734834299791471e-9, 2.4340102536773432e-8,
   1.7997072698307126e-7, 1.1123275328333613e-6, 5.777313969413904e-6, 2.533287242464506e-5, 9.415378933823506e-5,
   0.00029762646128941384, 0.0008025095939723926, 0.0018502760584066763]

/-- The decimal literals of `D2Q777::makeWeights`, `P/stencils/D2Q777.cpp:39-821`, entries 196…223 -/
def weightBlock7 : List (ℚ) :=
  [0.0036551600859727135, 0.006196711587271222, 0.009026876201482124, 0.011308714730513286, 0.012190277845267687,
   0.011308714730513286, 0.009026876201482124, 0.006196711587271222, 0.0036551600859727135, 0.0018502760584066763,
   0.0008025095939723926, 0.00029762646128941384, 9.415378933823506e-5, 2.533287242464506e-5, 5.777313969413904e-6,
   1.1123275328333613e-6, 1.7997072698307126e-7, 2.4340102536773432e-8, 2.5348830997514673e-10, 2.5348830997514673e-10,
   2.5348830997514673e-10, 6.561117365688772e-7, 5.553706476175508e-5, 1.4942716446543024e-5, 3.4077763871584915e-6,
   1.0615659751911937e-7, 1.4357126360963145e-8, 1.4952129687382232e-10]

/-- The decimal literals of `D2Q777::makeWeights`, `P/stencils/D2Q777.cpp:39-821`, entries 224…251 -/
def weightBlock8 : List (ℚ) :=
  [1.4357126360963145e-8, 1.0615659751911937e-7, 6.561117365688772e-7, 3.4077763871584915e-6, 1.4942716446543024e-5,
   5.553706476175508e-5, 0.00017555639737517988, 0.0004733641376054043, 0.0010913942179608803, 0.0021560137285607213,
   0.0036551600859727135, 0.005324546273938166, 0.006670499687532843, 0.00017555639737517988, 0.0071904939239815675,
   0.0004733641376054043, 0.0021560137285607213, 1.4952129687382232e-10, 1.6131551442349537e-9, 1.4357126360963145e-8,
   1.0615659751911937e-7, 6.561117365688772e-7, 3.4077763871584915e-6, 1.4942716446543024e-5, 5.553706476175508e-5,
   0.00017555639737517988, 0.0004733641376054043, 0.0010913942179608803]

/-- The decimal literals of `D2Q777::makeWeights`, `P/stencils/D2Q777.cpp:39-821`, entries 252…279 -/
def weightBlock9 : List (ℚ) :=
  [0.0021560137285607213, 0.0036551600859727135, 0.005324546273938166, 0.006670499687532843, 0.0071904939239815675,
   0.006670499687532843, 0.005324546273938166, 0.0036551600859727135, 0.0010913942179608803, 0.006670499687532843,
   1.6131551442349537e-9, 0.0036551600859727135, 0.005324546273938166, 1.4952129687382232e-10, 1.4952129687382232e-10,
   1.6131551442349537e-9, 1.4357126360963145e-8, 1.0615659751911937e-7, 6.561117365688772e-7, 1.6131551442349537e-9,
   1.4942716446543024e-5, 5.553706476175508e-5, 0.00017555639737517988, 0.0004733641376054043, 3.4077763871584915e-6,
   0.0021560137285607213, 0.0010913942179608803, 0.0010913942179608803]

/-- The decimal literals of `D2Q777::makeWeights`, `P/stencils/D2Q777.cpp:39-821`, entries 280…307 -/
def weightBlock10 : List (ℚ) :=
  [0.0005524739120254143, 0.00023962133261436075, 8.886828246182839e-5, 1.7250481273749683e-6, 7.564142154731507e-6,
   0.0018502760584066763, 3.321298682571804e-7, 5.3737457788875205e-8, 7.2677110026331655e-9, 8.165941495498662e-10,
   2.8113379131384958e-5, 0.002695334885701587, 0.003376669032039592, 0.0036398949547297864, 0.002695334885701587,
   0.0018502760584066763, 0.0010913942179608803, 0.00023962133261436075, 8.886828246182839e-5, 2.8113379131384958e-5,
   7.564142154731507e-6, 1.7250481273749683e-6, 3.321298682571804e-7, 5.3737457788875205e-8, 7.2677110026331655e-9,
   8.165941495498662e-10, 0.003376669032039592, 0.0005524739120254143]

/-- The decimal literals of `D2Q777::makeWeights`, `P/stencils/D2Q777.cpp:39-821`, entries 308…335 -/
def weightBlock11 : List (ℚ) :=
  [7.564142154731507e-6, 7.2677110026331655e-9, 8.165941495498662e-10, 7.2677110026331655e-9, 5.3737457788875205e-8,
   3.321298682571804e-7, 1.7250481273749683e-6, 7.564142154731507e-6, 2.8113379131384958e-5, 8.886828246182839e-5,
   0.00023962133261436075, 0.0005524739120254143, 0.0010913942179608803, 8.165941495498662e-10, 0.002695334885701587,
   0.0018502760584066763, 0.0036398949547297864, 5.3737457788875205e-8, 3.321298682571804e-7, 1.7250481273749683e-6,
   2.8113379131384958e-5, 0.003376669032039592, 8.886828246182839e-5, 0.0005524739120254143, 0.0010913942179608803,
   0.0018502760584066763, 0.002695334885701587, 0.003376669032039592]

/-- The decimal literals of `D2Q777::makeWeights`, `P/stencils/D2Q777.cpp:39-821`, entries 336…363 -/
def weightBlock12 : List (ℚ) :=
  [0.00023962133261436075, 3.8544329075348563e-5, 3.280751875787843e-6, 1.219345425209025e-5, 7.481952036252574e-7,
   2.33072385254743e-8, 2.33072385254743e-8, 3.1521824969482004e-9, 3.5417668429424116e-10, 0.00010392958254514071,
   1.4405277769777599e-7, 0.00023962133261436075, 3.280751875787843e-6, 0.0008025095939723926, 0.0004733641376054043,
   0.0008025095939723926, 0.0011690320992461265, 0.0014645432402204544, 0.0015787107058704297, 0.0014645432402204544,
   0.0011690320992461265, 0.0008025095939723926, 0.0004733641376054043, 0.00023962133261436075, 3.1521824969482004e-9,
   0.0004733641376054043, 0.00010392958254514071, 3.8544329075348563e-5]

/-- The decimal literals of `D2Q777::makeWeights`, `P/stencils/D2Q777.cpp:39-821`, entries 364…391 -/
def weightBlock13 : List (ℚ) :=
  [3.5417668429424116e-10, 3.1521824969482004e-9, 2.33072385254743e-8, 1.4405277769777599e-7, 7.481952036252574e-7,
   3.280751875787843e-6, 0.00010392958254514071, 0.00023962133261436075, 1.219345425209025e-5, 0.0011690320992461265,
   0.0014645432402204544, 0.0015787107058704297, 0.0014645432402204544, 0.0011690320992461265, 0.0008025095939723926,
   0.0004733641376054043, 0.00023962133261436075, 0.00010392958254514071, 3.8544329075348563e-5, 1.219345425209025e-5,
   1.219345425209025e-5, 1.4405277769777599e-7, 7.481952036252574e-7, 1.4405277769777599e-7, 2.33072385254743e-8,
   3.1521824969482004e-9, 3.5417668429424116e-10, 3.5417668429424116e-10]

/-- The decimal literals of `D2Q777::makeWeights`, `P/stencils/D2Q777.cpp:39-821`, entries 392…419 -/
def weightBlock14 : List (ℚ) :=
  [7.481952036252574e-7, 3.280751875787843e-6, 3.8544329075348563e-5, 8.886828246182839e-5, 0.00017555639737517988,
   3.8544329075348563e-5, 0.0004335585386712883, 0.0004335585386712883, 4.522182248289511e-6, 1.4294922268387615e-5,
   3.8544329075348563e-5, 8.886828246182839e-5, 0.00017555639737517988, 0.00029762646128941384, 1.3135338693700308e-10,
   1.1690488549316906e-9, 8.643947657283519e-9, 5.342480487102386e-8, 2.774829017388151e-7, 1.2167313369127562e-6,
   4.522182248289511e-6, 1.4294922268387615e-5, 3.8544329075348563e-5, 8.886828246182839e-5, 0.00017555639737517988,
   0.00029762646128941384, 0.0005431546554285068, 0.0005854959047431559]

/-- The decimal literals of `D2Q777::makeWeights`, `P/stencils/D2Q777.cpp:39-821`, entries 420…447 -/
def weightBlock15 : List (ℚ) :=
  [0.0005431546554285068, 0.00029762646128941384, 1.4294922268387615e-5, 1.3135338693700308e-10, 5.342480487102386e-8,
   1.3135338693700308e-10, 1.1690488549316906e-9, 8.643947657283519e-9, 5.342480487102386e-8, 2.774829017388151e-7,
   1.2167313369127562e-6, 4.522182248289511e-6, 1.4294922268387615e-5, 1.2167313369127562e-6, 3.8544329075348563e-5,
   8.886828246182839e-5, 0.00017555639737517988, 4.522182248289511e-6, 0.00029762646128941384, 0.0005431546554285068,
   0.0005854959047431559, 0.0005431546554285068, 0.0004335585386712883, 1.2167313369127562e-6, 2.774829017388151e-7,
   5.342480487102386e-8, 8.643947657283519e-9, 1.1690488549316906e-9]

/-- The decimal literals of `D2Q777::makeWeights`, `P/stencils/D2Q777.cpp:39-821`, entries 448…475 -/
def weightBlock16 : List (ℚ) :=
  [1.3135338693700308e-10, 1.1690488549316906e-9, 8.643947657283519e-9, 0.0004335585386712883, 2.774829017388151e-7,
   4.522182248289511e-6, 1.219345425209025e-5, 1.690087568649129e-8, 8.778139740025811e-8, 3.8491156156143665e-7,
   1.4305871625457562e-6, 4.522182248289511e-6, 1.219345425209025e-5, 2.8113379131384958e-5, 9.415378933823506e-5,
   0.00013715574596089003, 0.00017182635167498888, 2.7345029176797553e-9, 0.00018522095728571976, 0.00013715574596089003,
   9.415378933823506e-5, 5.553706476175508e-5, 2.8113379131384958e-5, 1.219345425209025e-5, 4.522182248289511e-6,
   1.4305871625457562e-6, 3.8491156156143665e-7, 8.778139740025811e-8]

/-- The decimal literals of `D2Q777::makeWeights`, `P/stencils/D2Q777.cpp:39-821`, entries 476…503 -/
def weightBlock17 : List (ℚ) :=
  [1.690087568649129e-8, 0.00017182635167498888, 3.6982726312869807e-10, 3.6982726312869807e-10, 2.7345029176797553e-9,
   1.4305871625457562e-6, 3.8491156156143665e-7, 8.778139740025811e-8, 1.690087568649129e-8, 2.7345029176797553e-9,
   3.6982726312869807e-10, 2.8113379131384958e-5, 5.553706476175508e-5, 9.415378933823506e-5, 0.00013715574596089003,
   0.00017182635167498888, 0.00018522095728571976, 0.00017182635167498888, 0.00013715574596089003, 9.415378933823506e-5,
   5.553706476175508e-5, 2.8113379131384958e-5, 1.219345425209025e-5, 4.522182248289511e-6, 1.4305871625457562e-6,
   3.8491156156143665e-7, 8.778139740025811e-8, 1.690087568649129e-8]

/-- The decimal literals of `D2Q777::makeWeights`, `P/stencils/D2Q777.cpp:39-821`, entries 504…531 -/
def weightBlock18 : List (ℚ) :=
  [2.7345029176797553e-9, 3.6982726312869807e-10, 5.553706476175508e-5, 1.2167313369127562e-6, 1.2167313369127562e-6,
   3.8491156156143665e-7, 1.0356370733819231e-7, 2.3618326540308028e-8, 4.547323380608773e-9, 7.357411108494795e-10,
   2.533287242464506e-5, 1.4942716446543024e-5, 3.280751875787843e-6, 7.564142154731507e-6, 3.280751875787843e-6,
   1.2167313369127562e-6, 3.8491156156143665e-7, 1.0356370733819231e-7, 2.3618326540308028e-8, 4.547323380608773e-9,
   7.357411108494795e-10, 7.357411108494795e-10, 3.8491156156143665e-7, 1.0356370733819231e-7, 7.357411108494795e-10,
   3.280751875787843e-6, 3.69029121308373e-5, 7.564142154731507e-6]

/-- The decimal literals of `D2Q777::makeWeights`, `P/stencils/D2Q777.cpp:39-821`, entries 532…559 -/
def weightBlock19 : List (ℚ) :=
  [1.4942716446543024e-5, 7.564142154731507e-6, 1.4942716446543024e-5, 2.533287242464506e-5, 3.69029121308373e-5,
   4.623133149253965e-5, 4.983526328859412e-5, 4.623133149253965e-5, 4.547323380608773e-9, 2.3618326540308028e-8,
   1.0356370733819231e-7, 4.547323380608773e-9, 3.8491156156143665e-7, 3.280751875787843e-6, 7.564142154731507e-6,
   1.4942716446543024e-5, 2.533287242464506e-5, 3.69029121308373e-5, 4.623133149253965e-5, 4.983526328859412e-5,
   4.623133149253965e-5, 3.69029121308373e-5, 2.533287242464506e-5, 1.2167313369127562e-6, 2.3618326540308028e-8,
   1.0370444555144684e-9, 2.3618326540308028e-8, 7.481952036252574e-7]

/-- The decimal literals of `D2Q777::makeWeights`, `P/stencils/D2Q777.cpp:39-821`, entries 560…587 -/
def weightBlock20 : List (ℚ) :=
  [2.774829017388151e-7, 8.778139740025811e-8, 2.3618326540308028e-8, 5.38630146507804e-9, 1.0370444555144684e-9,
   1.677901868501735e-10, 5.777313969413904e-6, 5.38630146507804e-9, 8.41593113452579e-6, 1.0543333293567343e-5,
   8.41593113452579e-6, 5.777313969413904e-6, 3.4077763871584915e-6, 1.7250481273749683e-6, 7.481952036252574e-7,
   2.774829017388151e-7, 8.778139740025811e-8, 1.0543333293567343e-5, 1.1365231622392648e-5, 1.677901868501735e-10,
   1.0370444555144684e-9, 5.38630146507804e-9, 2.3618326540308028e-8, 8.778139740025811e-8, 2.774829017388151e-7,
   7.481952036252574e-7, 1.7250481273749683e-6, 3.4077763871584915e-6]

/-- The decimal literals of `D2Q777::makeWeights`, `P/stencils/D2Q777.cpp:39-821`, entries 588…615 -/
def weightBlock21 : List (ℚ) :=
  [3.4077763871584915e-6, 1.677901868501735e-10, 1.677901868501735e-10, 5.777313969413904e-6, 8.41593113452579e-6,
   1.0370444555144684e-9, 1.1365231622392648e-5, 5.38630146507804e-9, 2.3618326540308028e-8, 8.778139740025811e-8,
   2.774829017388151e-7, 7.481952036252574e-7, 1.7250481273749683e-6, 1.0543333293567343e-5, 3.4077763871584915e-6,
   5.777313969413904e-6, 8.41593113452579e-6, 1.0543333293567343e-5, 1.7250481273749683e-6, 1.0370444555144684e-9,
   4.547323380608773e-9, 1.690087568649129e-8, 1.9966598781854822e-10, 1.4405277769777599e-7, 6.561117365688772e-7,
   1.0370444555144684e-9, 4.547323380608773e-9, 1.690087568649129e-8]

/-- The decimal literals of `D2Q777::makeWeights`, `P/stencils/D2Q777.cpp:39-821`, entries 616…643 -/
def weightBlock22 : List (ℚ) :=
  [5.342480487102386e-8, 1.4405277769777599e-7, 3.321298682571804e-7, 6.561117365688772e-7, 1.1123275328333613e-6,
   1.6203502120401847e-6, 2.029946783637127e-6, 1.9966598781854822e-10, 3.321298682571804e-7, 1.6203502120401847e-6,
   1.1123275328333613e-6, 6.561117365688772e-7, 3.321298682571804e-7, 1.4405277769777599e-7, 5.342480487102386e-8,
   1.690087568649129e-8, 4.547323380608773e-9, 1.0370444555144684e-9, 1.9966598781854822e-10, 2.029946783637127e-6,
   5.342480487102386e-8, 2.1881898954330506e-6, 5.342480487102386e-8, 1.4405277769777599e-7, 1.1123275328333613e-6,
   1.690087568649129e-8, 4.547323380608773e-9, 1.0370444555144684e-9]

/-- The decimal literals of `D2Q777::makeWeights`, `P/stencils/D2Q777.cpp:39-821`, entries 644…671 -/
def weightBlock23 : List (ℚ) :=
  [1.9966598781854822e-10, 1.6203502120401847e-6, 2.029946783637127e-6, 3.321298682571804e-7, 2.1881898954330506e-6,
   1.6203502120401847e-6, 1.1123275328333613e-6, 2.029946783637127e-6, 6.561117365688772e-7, 5.3737457788875205e-8,
   1.0615659751911937e-7, 1.7997072698307126e-7, 2.621670299621478e-7, 3.284383309811064e-7, 3.540415162204691e-7,
   3.540415162204691e-7, 2.33072385254743e-8, 8.643947657283519e-9, 2.7345029176797553e-9, 7.357411108494795e-10,
   1.677901868501735e-10, 1.0615659751911937e-7, 5.3737457788875205e-8, 2.33072385254743e-8, 8.643947657283519e-9,
   2.7345029176797553e-9, 7.357411108494795e-10, 1.677901868501735e-10]

/-- The decimal literals of `D2Q777::makeWeights`, `P/stencils/D2Q777.cpp:39-821`, entries 672…699 -/
def weightBlock24 : List (ℚ) :=
  [3.284383309811064e-7, 2.621670299621478e-7, 7.357411108494795e-10, 1.0615659751911937e-7, 3.284383309811064e-7,
   2.621670299621478e-7, 1.7997072698307126e-7, 2.621670299621478e-7, 1.7997072698307126e-7, 1.0615659751911937e-7,
   5.3737457788875205e-8, 1.7997072698307126e-7, 8.643947657283519e-9, 2.33072385254743e-8, 7.357411108494795e-10,
   1.677901868501735e-10, 1.677901868501735e-10, 3.284383309811064e-7, 2.7345029176797553e-9, 8.643947657283519e-9,
   2.33072385254743e-8, 5.3737457788875205e-8, 2.7345029176797553e-9, 3.6982726312869807e-10, 1.1690488549316906e-9,
   4.44195719331557e-8, 7.2677110026331655e-9, 2.4340102536773432e-8]

/-- The decimal literals of `D2Q777::makeWeights`, `P/stencils/D2Q777.cpp:39-821`, entries 700…727 -/
def weightBlock25 : List (ℚ) :=
  [7.2677110026331655e-9, 3.1521824969482004e-9, 1.1690488549316906e-9, 3.6982726312869807e-10, 3.6982726312869807e-10,
   1.1690488549316906e-9, 3.1521824969482004e-9, 1.4357126360963145e-8, 7.2677110026331655e-9, 1.4357126360963145e-8,
   3.1521824969482004e-9, 2.4340102536773432e-8, 3.545672397956289e-8, 4.44195719331557e-8, 4.788226925310768e-8,
   3.6982726312869807e-10, 1.1690488549316906e-9, 3.1521824969482004e-9, 7.2677110026331655e-9, 1.4357126360963145e-8,
   2.4340102536773432e-8, 3.545672397956289e-8, 4.44195719331557e-8, 3.545672397956289e-8, 4.788226925310768e-8,
   4.44195719331557e-8, 3.545672397956289e-8, 1.4357126360963145e-8]

/-- The decimal literals of `D2Q777::makeWeights`, `P/stencils/D2Q777.cpp:39-821`, entries 728…755 -/
def weightBlock26 : List (ℚ) :=
  [2.4340102536773432e-8, 5.380013174036875e-9, 3.9838889236824726e-9, 4.990947294544651e-9, 4.990947294544651e-9,
   3.9838889236824726e-9, 1.6131551442349537e-9, 8.165941495498662e-10, 3.5417668429424116e-10, 1.3135338693700308e-10,
   2.734834299791471e-9, 2.734834299791471e-9, 8.165941495498662e-10, 4.990947294544651e-9, 4.990947294544651e-9,
   5.380013174036875e-9, 3.5417668429424116e-10, 1.6131551442349537e-9, 3.9838889236824726e-9, 2.734834299791471e-9,
   1.6131551442349537e-9, 8.165941495498662e-10, 3.5417668429424116e-10, 1.3135338693700308e-10, 1.3135338693700308e-10,
   1.6131551442349537e-9, 8.165941495498662e-10, 3.5417668429424116e-10]

/-- The decimal literals of `D2Q777::makeWeights`, `P/stencils/D2Q777.cpp:39-821`, entries 756…776 -/
def weightBlock27 : List (ℚ) :=
  [1.3135338693700308e-10, 3.9838889236824726e-9, 2.734834299791471e-9, 4.626045515684884e-10, 1.4952129687382232e-10,
   3.6926159309541286e-10, 4.626045515684884e-10, 4.986665726821618e-10, 3.6926159309541286e-10, 2.5348830997514673e-10,
   1.4952129687382232e-10, 1.4952129687382232e-10, 2.5348830997514673e-10, 3.6926159309541286e-10, 4.626045515684884e-10,
   4.986665726821618e-10, 4.626045515684884e-10, 3.6926159309541286e-10, 2.5348830997514673e-10, 2.5348830997514673e-10,
   1.4952129687382232e-10]

/-- The decimal literals of `D2Q777::makeWeights`, `P/stencils/D2Q777.cpp:39-821`, in blocks of 28 entries -/
def weightBlocks : List (List (ℚ)) :=
  [weightBlock0, weightBlock1, weightBlock2, weightBlock3, weightBlock4, weightBlock5, weightBlock6, weightBlock7,
   weightBlock8, weightBlock9, weightBlock10, weightBlock11, weightBlock12, weightBlock13, weightBlock14, weightBlock15,
   weightBlock16, weightBlock17, weightBlock18, weightBlock19, weightBlock20, weightBlock21, weightBlock22, weightBlock23,
   weightBlock24, weightBlock25, weightBlock26] ++ [weightBlock27]

/-- `directionsArray`, `P/stencils/D2Q777.cpp:824-1619`, entries 0…27 -/
def dirBlock0 : List (Fin 2 → ℚ) :=
  [![0, 0], ![0, -5.133619099991676], ![0, -4.726076820871546],
   ![0, -4.3217850056545455], ![0, -3.9203767788867454], ![0, -3.5215145174049827],
   ![0, -3.124885058323666], ![0, -2.7301956753090653], ![0, -1.9455483447849033],
   ![0, -1.5550785670754994], ![0, -1.1655203235633913], ![0, -0.7766397181201957],
   ![0, -0.3882080458814402], ![0, 0.3882080458814402], ![0, 0.7766397181201957],
   ![0, 1.1655203235633913], ![0, 1.5550785670754994], ![0, 1.9455483447849033],
   ![0, 2.337170655140884], ![0, 2.7301956753090653], ![0, 3.124885058323666],
   ![0, 3.5215145174049827], ![0, 3.9203767788867454], ![0, 4.3217850056545455],
   ![0, 4.726076820871546], ![0, 5.133619099991676], ![0, 5.544813751984586],
   ![0, 5.960104784881298]]

/-- `directionsArray`, `P/stencils/D2Q777.cpp:824-1619`, entries 28…55 -/
def dirBlock1 : List (Fin 2 → ℚ) :=
  [![0, -5.544813751984586], ![0, -5.960104784881298], ![0, -2.337170655140884],
   ![-0.3882080458814402, 2.7301956753090653], ![-0.3882080458814402, 3.9203767788867454], ![-0.3882080458814402, 4.3217850056545455],
   ![-0.3882080458814402, 4.726076820871546], ![-0.3882080458814402, 5.133619099991676], ![-0.3882080458814402, 5.544813751984586],
   ![-0.3882080458814402, 5.960104784881298], ![0.3882080458814402, -5.960104784881298], ![0.3882080458814402, -5.133619099991676],
   ![0.3882080458814402, -4.726076820871546], ![0.3882080458814402, -4.3217850056545455], ![0.3882080458814402, -3.9203767788867454],
   ![0.3882080458814402, -3.5215145174049827], ![0.3882080458814402, -3.124885058323666], ![0.3882080458814402, -2.7301956753090653],
   ![0.3882080458814402, -2.337170655140884], ![0.3882080458814402, -1.9455483447849033], ![0.3882080458814402, -1.5550785670754994],
   ![0.3882080458814402, -1.1655203235633913], ![0.3882080458814402, -0.7766397181201957], ![-0.3882080458814402, 3.5215145174049827],
   ![-0.3882080458814402, 3.124885058323666], ![-0.3882080458814402, 2.337170655140884], ![-0.3882080458814402, 1.9455483447849033],
   ![-0.3882080458814402, -5.960104784881298]]

/-- `directionsArray`, `P/stencils/D2Q777.cpp:824-1619`, entries 56…83 -/
def dirBlock2 : List (Fin 2 → ℚ) :=
  [![-0.3882080458814402, -5.544813751984586], ![-0.3882080458814402, -5.133619099991676], ![-0.3882080458814402, -4.726076820871546],
   ![-0.3882080458814402, -4.3217850056545455], ![-0.3882080458814402, -3.9203767788867454], ![-0.3882080458814402, -3.5215145174049827],
   ![-0.3882080458814402, -3.124885058323666], ![-0.3882080458814402, -2.7301956753090653], ![0.3882080458814402, -0.3882080458814402],
   ![-0.3882080458814402, -2.337170655140884], ![-0.3882080458814402, -1.5550785670754994], ![-0.3882080458814402, -1.1655203235633913],
   ![-0.3882080458814402, -0.7766397181201957], ![-0.3882080458814402, -0.3882080458814402], ![-0.3882080458814402, 0],
   ![-0.3882080458814402, 0.3882080458814402], ![-0.3882080458814402, 0.7766397181201957], ![-0.3882080458814402, 1.1655203235633913],
   ![-0.3882080458814402, 1.5550785670754994], ![-0.3882080458814402, -1.9455483447849033], ![0.3882080458814402, 0],
   ![0.3882080458814402, -5.544813751984586], ![0.3882080458814402, 0.7766397181201957], ![0.3882080458814402, 0.3882080458814402],
   ![0.3882080458814402, 5.544813751984586], ![0.3882080458814402, 5.133619099991676], ![0.3882080458814402, 4.726076820871546],
   ![0.3882080458814402, 4.3217850056545455]]

/-- `directionsArray`, `P/stencils/D2Q777.cpp:824-1619`, entries 84…111 -/
def dirBlock3 : List (Fin 2 → ℚ) :=
  [![0.3882080458814402, 3.9203767788867454], ![0.3882080458814402, 5.960104784881298], ![0.3882080458814402, 3.124885058323666],
   ![0.3882080458814402, 2.7301956753090653], ![0.3882080458814402, 2.337170655140884], ![0.3882080458814402, 1.9455483447849033],
   ![0.3882080458814402, 1.5550785670754994], ![0.3882080458814402, 3.5215145174049827], ![0.3882080458814402, 1.1655203235633913],
   ![-0.7766397181201957, 1.5550785670754994], ![-0.7766397181201957, 1.9455483447849033], ![-0.7766397181201957, 2.337170655140884],
   ![-0.7766397181201957, 2.7301956753090653], ![-0.7766397181201957, 3.124885058323666], ![-0.7766397181201957, 4.3217850056545455],
   ![-0.7766397181201957, 3.9203767788867454], ![-0.7766397181201957, 4.726076820871546], ![-0.7766397181201957, 5.133619099991676],
   ![-0.7766397181201957, 5.544813751984586], ![-0.7766397181201957, 1.1655203235633913], ![-0.7766397181201957, 3.5215145174049827],
   ![-0.7766397181201957, 0.7766397181201957], ![-0.7766397181201957, -1.9455483447849033], ![-0.7766397181201957, 0],
   ![-0.7766397181201957, -0.3882080458814402], ![-0.7766397181201957, -0.7766397181201957], ![-0.7766397181201957, -1.1655203235633913],
   ![-0.7766397181201957, -1.5550785670754994]]

/-- `directionsArray`, `P/stencils/D2Q777.cpp:824-1619`, entries 112…139 -/
def dirBlock4 : List (Fin 2 → ℚ) :=
  [![-0.7766397181201957, 5.960104784881298], ![-0.7766397181201957, -2.7301956753090653], ![-0.7766397181201957, -3.124885058323666],
   ![-0.7766397181201957, -3.5215145174049827], ![-0.7766397181201957, -3.9203767788867454], ![-0.7766397181201957, -4.3217850056545455],
   ![-0.7766397181201957, -4.726076820871546], ![-0.7766397181201957, -5.133619099991676], ![-0.7766397181201957, 0.3882080458814402],
   ![0.7766397181201957, 5.960104784881298], ![0.7766397181201957, 2.7301956753090653], ![0.7766397181201957, 5.133619099991676],
   ![-0.7766397181201957, -5.544813751984586], ![0.7766397181201957, -5.960104784881298], ![0.7766397181201957, -5.544813751984586],
   ![0.7766397181201957, -5.133619099991676], ![0.7766397181201957, -4.726076820871546], ![0.7766397181201957, -4.3217850056545455],
   ![0.7766397181201957, -3.9203767788867454], ![0.7766397181201957, -3.5215145174049827], ![0.7766397181201957, -3.124885058323666],
   ![0.7766397181201957, -2.7301956753090653], ![0.7766397181201957, -2.337170655140884], ![0.7766397181201957, -1.9455483447849033],
   ![0.7766397181201957, -1.5550785670754994], ![0.7766397181201957, 5.544813751984586], ![0.7766397181201957, -1.1655203235633913],
   ![0.7766397181201957, -0.3882080458814402]]

/-- `directionsArray`, `P/stencils/D2Q777.cpp:824-1619`, entries 140…167 -/
def dirBlock5 : List (Fin 2 → ℚ) :=
  [![0.7766397181201957, 0], ![0.7766397181201957, 0.3882080458814402], ![0.7766397181201957, 0.7766397181201957],
   ![0.7766397181201957, 1.1655203235633913], ![0.7766397181201957, 1.5550785670754994], ![0.7766397181201957, 1.9455483447849033],
   ![0.7766397181201957, 2.337170655140884], ![0.7766397181201957, 3.124885058323666], ![0.7766397181201957, 3.5215145174049827],
   ![0.7766397181201957, 3.9203767788867454], ![0.7766397181201957, 4.3217850056545455], ![0.7766397181201957, 4.726076820871546],
   ![0.7766397181201957, -0.7766397181201957], ![-0.7766397181201957, -5.960104784881298], ![-0.7766397181201957, -2.337170655140884],
   ![-1.1655203235633913, 3.124885058323666], ![-1.1655203235633913, 5.133619099991676], ![-1.1655203235633913, 4.726076820871546],
   ![-1.1655203235633913, 4.3217850056545455], ![-1.1655203235633913, 3.9203767788867454], ![-1.1655203235633913, 3.5215145174049827],
   ![1.1655203235633913, -5.544813751984586], ![-1.1655203235633913, 2.7301956753090653], ![-1.1655203235633913, 2.337170655140884],
   ![-1.1655203235633913, 1.9455483447849033], ![-1.1655203235633913, 1.5550785670754994], ![-1.1655203235633913, 1.1655203235633913],
   ![-1.1655203235633913, 0.7766397181201957]]

/-- `directionsArray`, `P/stencils/D2Q777.cpp:824-1619`, entries 168…195 -/
def dirBlock6 : List (Fin 2 → ℚ) :=
  [![-1.1655203235633913, 0.3882080458814402], ![-1.1655203235633913, 0], ![-1.1655203235633913, -0.3882080458814402],
   ![-1.1655203235633913, -0.7766397181201957], ![-1.1655203235633913, -1.1655203235633913], ![-1.1655203235633913, -1.5550785670754994],
   ![-1.1655203235633913, -1.9455483447849033], ![-1.1655203235633913, -2.337170655140884], ![-1.1655203235633913, -2.7301956753090653],
   ![-1.1655203235633913, -3.124885058323666], ![-1.1655203235633913, -3.5215145174049827], ![-1.1655203235633913, -3.9203767788867454],
   ![-1.1655203235633913, -4.3217850056545455], ![-1.1655203235633913, -4.726076820871546], ![-1.1655203235633913, -5.133619099991676],
   ![-1.1655203235633913, 5.544813751984586], ![-1.1655203235633913, -5.544813751984586], ![-1.1655203235633913, 5.960104784881298],
   ![1.1655203235633913, 5.544813751984586], ![1.1655203235633913, -5.133619099991676], ![1.1655203235633913, -4.726076820871546],
   ![1.1655203235633913, -4.3217850056545455], ![1.1655203235633913, -3.9203767788867454], ![1.1655203235633913, -3.5215145174049827],
   ![1.1655203235633913, -3.124885058323666], ![1.1655203235633913, -2.7301956753090653], ![1.1655203235633913, -2.337170655140884],
   ![1.1655203235633913, -1.9455483447849033]]

/-- `directionsArray`, `P/stencils/D2Q777.cpp:824-1619`, entries 196…223 -/
def dirBlock7 : List (Fin 2 → ℚ) :=
  [![1.1655203235633913, -1.5550785670754994], ![1.1655203235633913, -1.1655203235633913], ![1.1655203235633913, -0.7766397181201957],
   ![1.1655203235633913, -0.3882080458814402], ![1.1655203235633913, 0], ![1.1655203235633913, 0.3882080458814402],
   ![1.1655203235633913, 0.7766397181201957], ![1.1655203235633913, 1.1655203235633913], ![1.1655203235633913, 1.5550785670754994],
   ![1.1655203235633913, 1.9455483447849033], ![1.1655203235633913, 2.337170655140884], ![1.1655203235633913, 2.7301956753090653],
   ![1.1655203235633913, 3.124885058323666], ![1.1655203235633913, 3.5215145174049827], ![1.1655203235633913, 3.9203767788867454],
   ![1.1655203235633913, 4.3217850056545455], ![1.1655203235633913, 4.726076820871546], ![1.1655203235633913, 5.133619099991676],
   ![1.1655203235633913, 5.960104784881298], ![-1.1655203235633913, -5.960104784881298], ![1.1655203235633913, -5.960104784881298],
   ![1.5550785670754994, -4.3217850056545455], ![1.5550785670754994, -3.124885058323666], ![1.5550785670754994, -3.5215145174049827],
   ![1.5550785670754994, -3.9203767788867454], ![1.5550785670754994, -4.726076820871546], ![1.5550785670754994, -5.133619099991676],
   ![-1.5550785670754994, 5.960104784881298]]

/-- `directionsArray`, `P/stencils/D2Q777.cpp:824-1619`, entries 224…251 -/
def dirBlock8 : List (Fin 2 → ℚ) :=
  [![-1.5550785670754994, 5.133619099991676], ![-1.5550785670754994, 4.726076820871546], ![-1.5550785670754994, 4.3217850056545455],
   ![-1.5550785670754994, 3.9203767788867454], ![-1.5550785670754994, 3.5215145174049827], ![-1.5550785670754994, 3.124885058323666],
   ![-1.5550785670754994, 2.7301956753090653], ![-1.5550785670754994, 2.337170655140884], ![-1.5550785670754994, 1.9455483447849033],
   ![-1.5550785670754994, 1.5550785670754994], ![-1.5550785670754994, 1.1655203235633913], ![-1.5550785670754994, 0.7766397181201957],
   ![-1.5550785670754994, 0.3882080458814402], ![1.5550785670754994, -2.7301956753090653], ![-1.5550785670754994, 0],
   ![1.5550785670754994, -2.337170655140884], ![1.5550785670754994, -1.5550785670754994], ![1.5550785670754994, 5.960104784881298],
   ![1.5550785670754994, 5.544813751984586], ![1.5550785670754994, 5.133619099991676], ![1.5550785670754994, 4.726076820871546],
   ![1.5550785670754994, 4.3217850056545455], ![1.5550785670754994, 3.9203767788867454], ![1.5550785670754994, 3.5215145174049827],
   ![1.5550785670754994, 3.124885058323666], ![1.5550785670754994, 2.7301956753090653], ![1.5550785670754994, 2.337170655140884],
   ![1.5550785670754994, 1.9455483447849033]]

/-- `directionsArray`, `P/stencils/D2Q777.cpp:824-1619`, entries 252…279 -/
def dirBlock9 : List (Fin 2 → ℚ) :=
  [![1.5550785670754994, 1.5550785670754994], ![1.5550785670754994, 1.1655203235633913], ![1.5550785670754994, 0.7766397181201957],
   ![1.5550785670754994, 0.3882080458814402], ![1.5550785670754994, 0], ![1.5550785670754994, -0.3882080458814402],
   ![1.5550785670754994, -0.7766397181201957], ![1.5550785670754994, -1.1655203235633913], ![1.5550785670754994, -1.9455483447849033],
   ![-1.5550785670754994, -0.3882080458814402], ![-1.5550785670754994, 5.544813751984586], ![-1.5550785670754994, -1.1655203235633913],
   ![-1.5550785670754994, -0.7766397181201957], ![1.5550785670754994, -5.960104784881298], ![-1.5550785670754994, -5.960104784881298],
   ![-1.5550785670754994, -5.544813751984586], ![-1.5550785670754994, -5.133619099991676], ![-1.5550785670754994, -4.726076820871546],
   ![-1.5550785670754994, -4.3217850056545455], ![1.5550785670754994, -5.544813751984586], ![-1.5550785670754994, -3.5215145174049827],
   ![-1.5550785670754994, -3.124885058323666], ![-1.5550785670754994, -2.7301956753090653], ![-1.5550785670754994, -2.337170655140884],
   ![-1.5550785670754994, -3.9203767788867454], ![-1.5550785670754994, -1.5550785670754994], ![-1.5550785670754994, -1.9455483447849033],
   ![1.9455483447849033, -1.5550785670754994]]

/-- `directionsArray`, `P/stencils/D2Q777.cpp:824-1619`, entries 280…307 -/
def dirBlock10 : List (Fin 2 → ℚ) :=
  [![1.9455483447849033, -1.9455483447849033], ![1.9455483447849033, -2.337170655140884], ![1.9455483447849033, -2.7301956753090653],
   ![1.9455483447849033, -3.9203767788867454], ![1.9455483447849033, -3.5215145174049827], ![1.9455483447849033, -1.1655203235633913],
   ![1.9455483447849033, -4.3217850056545455], ![1.9455483447849033, -4.726076820871546], ![1.9455483447849033, -5.133619099991676],
   ![1.9455483447849033, -5.544813751984586], ![1.9455483447849033, -3.124885058323666], ![1.9455483447849033, -0.7766397181201957],
   ![1.9455483447849033, 0.3882080458814402], ![1.9455483447849033, 0], ![1.9455483447849033, 0.7766397181201957],
   ![1.9455483447849033, 1.1655203235633913], ![1.9455483447849033, 1.5550785670754994], ![1.9455483447849033, 2.337170655140884],
   ![1.9455483447849033, 2.7301956753090653], ![1.9455483447849033, 3.124885058323666], ![1.9455483447849033, 3.5215145174049827],
   ![1.9455483447849033, 3.9203767788867454], ![1.9455483447849033, 4.3217850056545455], ![1.9455483447849033, 4.726076820871546],
   ![1.9455483447849033, 5.133619099991676], ![1.9455483447849033, 5.544813751984586], ![1.9455483447849033, -0.3882080458814402],
   ![1.9455483447849033, 1.9455483447849033]]

/-- `directionsArray`, `P/stencils/D2Q777.cpp:824-1619`, entries 308…335 -/
def dirBlock11 : List (Fin 2 → ℚ) :=
  [![-1.9455483447849033, -3.5215145174049827], ![-1.9455483447849033, -5.133619099991676], ![-1.9455483447849033, 5.544813751984586],
   ![-1.9455483447849033, 5.133619099991676], ![-1.9455483447849033, 4.726076820871546], ![-1.9455483447849033, 4.3217850056545455],
   ![-1.9455483447849033, 3.9203767788867454], ![-1.9455483447849033, 3.5215145174049827], ![-1.9455483447849033, 3.124885058323666],
   ![-1.9455483447849033, 2.7301956753090653], ![-1.9455483447849033, 2.337170655140884], ![-1.9455483447849033, 1.9455483447849033],
   ![-1.9455483447849033, 1.5550785670754994], ![-1.9455483447849033, -5.544813751984586], ![-1.9455483447849033, 0.7766397181201957],
   ![-1.9455483447849033, 1.1655203235633913], ![-1.9455483447849033, 0], ![-1.9455483447849033, -4.726076820871546],
   ![-1.9455483447849033, -4.3217850056545455], ![-1.9455483447849033, -3.9203767788867454], ![-1.9455483447849033, -3.124885058323666],
   ![-1.9455483447849033, 0.3882080458814402], ![-1.9455483447849033, -2.7301956753090653], ![-1.9455483447849033, -1.9455483447849033],
   ![-1.9455483447849033, -1.5550785670754994], ![-1.9455483447849033, -1.1655203235633913], ![-1.9455483447849033, -0.7766397181201957],
   ![-1.9455483447849033, -0.3882080458814402]]

/-- `directionsArray`, `P/stencils/D2Q777.cpp:824-1619`, entries 336…363 -/
def dirBlock12 : List (Fin 2 → ℚ) :=
  [![-1.9455483447849033, -2.337170655140884], ![2.337170655140884, -2.7301956753090653], ![2.337170655140884, -3.5215145174049827],
   ![2.337170655140884, -3.124885058323666], ![2.337170655140884, -3.9203767788867454], ![-2.337170655140884, 4.726076820871546],
   ![2.337170655140884, -4.726076820871546], ![2.337170655140884, -5.133619099991676], ![2.337170655140884, -5.544813751984586],
   ![2.337170655140884, -2.337170655140884], ![2.337170655140884, -4.3217850056545455], ![2.337170655140884, -1.9455483447849033],
   ![2.337170655140884, 3.5215145174049827], ![2.337170655140884, -1.1655203235633913], ![-2.337170655140884, 1.5550785670754994],
   ![-2.337170655140884, 1.1655203235633913], ![-2.337170655140884, 0.7766397181201957], ![-2.337170655140884, 0.3882080458814402],
   ![-2.337170655140884, 0], ![-2.337170655140884, -0.3882080458814402], ![-2.337170655140884, -0.7766397181201957],
   ![-2.337170655140884, -1.1655203235633913], ![-2.337170655140884, -1.5550785670754994], ![-2.337170655140884, -1.9455483447849033],
   ![-2.337170655140884, 5.133619099991676], ![2.337170655140884, -1.5550785670754994], ![-2.337170655140884, -2.337170655140884],
   ![-2.337170655140884, -2.7301956753090653]]

/-- `directionsArray`, `P/stencils/D2Q777.cpp:824-1619`, entries 364…391 -/
def dirBlock13 : List (Fin 2 → ℚ) :=
  [![-2.337170655140884, -5.544813751984586], ![-2.337170655140884, -5.133619099991676], ![-2.337170655140884, -4.726076820871546],
   ![-2.337170655140884, -4.3217850056545455], ![-2.337170655140884, -3.9203767788867454], ![-2.337170655140884, -3.5215145174049827],
   ![-2.337170655140884, 2.337170655140884], ![-2.337170655140884, 1.9455483447849033], ![-2.337170655140884, 3.124885058323666],
   ![2.337170655140884, -0.7766397181201957], ![2.337170655140884, -0.3882080458814402], ![2.337170655140884, 0],
   ![2.337170655140884, 0.3882080458814402], ![2.337170655140884, 0.7766397181201957], ![2.337170655140884, 1.1655203235633913],
   ![2.337170655140884, 1.5550785670754994], ![2.337170655140884, 1.9455483447849033], ![2.337170655140884, 2.337170655140884],
   ![-2.337170655140884, 2.7301956753090653], ![-2.337170655140884, -3.124885058323666], ![2.337170655140884, 3.124885058323666],
   ![-2.337170655140884, 4.3217850056545455], ![2.337170655140884, 3.9203767788867454], ![2.337170655140884, 4.3217850056545455],
   ![2.337170655140884, 4.726076820871546], ![2.337170655140884, 5.133619099991676], ![2.337170655140884, 5.544813751984586],
   ![-2.337170655140884, 5.544813751984586]]

/-- `directionsArray`, `P/stencils/D2Q777.cpp:824-1619`, entries 392…419 -/
def dirBlock14 : List (Fin 2 → ℚ) :=
  [![-2.337170655140884, 3.9203767788867454], ![-2.337170655140884, 3.5215145174049827], ![2.337170655140884, 2.7301956753090653],
   ![-2.7301956753090653, 1.9455483447849033], ![-2.7301956753090653, 1.5550785670754994], ![-2.7301956753090653, 2.337170655140884],
   ![-2.7301956753090653, -0.7766397181201957], ![-2.7301956753090653, 0.7766397181201957], ![2.7301956753090653, 3.124885058323666],
   ![2.7301956753090653, 2.7301956753090653], ![2.7301956753090653, 2.337170655140884], ![2.7301956753090653, 1.9455483447849033],
   ![2.7301956753090653, 1.5550785670754994], ![2.7301956753090653, 1.1655203235633913], ![-2.7301956753090653, -5.544813751984586],
   ![-2.7301956753090653, -5.133619099991676], ![-2.7301956753090653, -4.726076820871546], ![-2.7301956753090653, -4.3217850056545455],
   ![-2.7301956753090653, -3.9203767788867454], ![-2.7301956753090653, -3.5215145174049827], ![-2.7301956753090653, -3.124885058323666],
   ![-2.7301956753090653, -2.7301956753090653], ![-2.7301956753090653, -2.337170655140884], ![-2.7301956753090653, -1.9455483447849033],
   ![-2.7301956753090653, -1.5550785670754994], ![-2.7301956753090653, -1.1655203235633913], ![-2.7301956753090653, -0.3882080458814402],
   ![-2.7301956753090653, 0]]

/-- `directionsArray`, `P/stencils/D2Q777.cpp:824-1619`, entries 420…447 -/
def dirBlock15 : List (Fin 2 → ℚ) :=
  [![-2.7301956753090653, 0.3882080458814402], ![-2.7301956753090653, 1.1655203235633913], ![-2.7301956753090653, 2.7301956753090653],
   ![2.7301956753090653, 5.544813751984586], ![2.7301956753090653, 4.3217850056545455], ![2.7301956753090653, -5.544813751984586],
   ![2.7301956753090653, -5.133619099991676], ![2.7301956753090653, -4.726076820871546], ![2.7301956753090653, -4.3217850056545455],
   ![2.7301956753090653, -3.9203767788867454], ![2.7301956753090653, -3.5215145174049827], ![2.7301956753090653, -3.124885058323666],
   ![2.7301956753090653, -2.7301956753090653], ![2.7301956753090653, 3.5215145174049827], ![2.7301956753090653, -2.337170655140884],
   ![2.7301956753090653, -1.9455483447849033], ![2.7301956753090653, -1.5550785670754994], ![-2.7301956753090653, 3.124885058323666],
   ![2.7301956753090653, -1.1655203235633913], ![2.7301956753090653, -0.3882080458814402], ![2.7301956753090653, 0],
   ![2.7301956753090653, 0.3882080458814402], ![2.7301956753090653, 0.7766397181201957], ![-2.7301956753090653, 3.5215145174049827],
   ![-2.7301956753090653, 3.9203767788867454], ![-2.7301956753090653, 4.3217850056545455], ![-2.7301956753090653, 4.726076820871546],
   ![-2.7301956753090653, 5.133619099991676]]

/-- `directionsArray`, `P/stencils/D2Q777.cpp:824-1619`, entries 448…475 -/
def dirBlock16 : List (Fin 2 → ℚ) :=
  [![-2.7301956753090653, 5.544813751984586], ![2.7301956753090653, 5.133619099991676], ![2.7301956753090653, 4.726076820871546],
   ![2.7301956753090653, -0.7766397181201957], ![2.7301956753090653, 3.9203767788867454], ![-3.124885058323666, 2.7301956753090653],
   ![-3.124885058323666, 2.337170655140884], ![3.124885058323666, 4.3217850056545455], ![3.124885058323666, 3.9203767788867454],
   ![3.124885058323666, 3.5215145174049827], ![3.124885058323666, 3.124885058323666], ![3.124885058323666, 2.7301956753090653],
   ![3.124885058323666, 2.337170655140884], ![3.124885058323666, 1.9455483447849033], ![3.124885058323666, 1.1655203235633913],
   ![3.124885058323666, 0.7766397181201957], ![3.124885058323666, 0.3882080458814402], ![3.124885058323666, 4.726076820871546],
   ![3.124885058323666, 0], ![3.124885058323666, -0.7766397181201957], ![3.124885058323666, -1.1655203235633913],
   ![3.124885058323666, -1.5550785670754994], ![3.124885058323666, -1.9455483447849033], ![3.124885058323666, -2.337170655140884],
   ![3.124885058323666, -2.7301956753090653], ![3.124885058323666, -3.124885058323666], ![3.124885058323666, -3.5215145174049827],
   ![3.124885058323666, -3.9203767788867454]]

/-- `directionsArray`, `P/stencils/D2Q777.cpp:824-1619`, entries 476…503 -/
def dirBlock17 : List (Fin 2 → ℚ) :=
  [![3.124885058323666, -4.3217850056545455], ![3.124885058323666, -0.3882080458814402], ![3.124885058323666, 5.133619099991676],
   ![-3.124885058323666, -5.133619099991676], ![-3.124885058323666, -4.726076820871546], ![-3.124885058323666, 3.124885058323666],
   ![-3.124885058323666, 3.5215145174049827], ![-3.124885058323666, 3.9203767788867454], ![-3.124885058323666, 4.3217850056545455],
   ![-3.124885058323666, 4.726076820871546], ![-3.124885058323666, 5.133619099991676], ![-3.124885058323666, 1.9455483447849033],
   ![-3.124885058323666, 1.5550785670754994], ![-3.124885058323666, 1.1655203235633913], ![-3.124885058323666, 0.7766397181201957],
   ![-3.124885058323666, 0.3882080458814402], ![-3.124885058323666, 0], ![-3.124885058323666, -0.3882080458814402],
   ![-3.124885058323666, -0.7766397181201957], ![-3.124885058323666, -1.1655203235633913], ![-3.124885058323666, -1.5550785670754994],
   ![-3.124885058323666, -1.9455483447849033], ![-3.124885058323666, -2.337170655140884], ![-3.124885058323666, -2.7301956753090653],
   ![-3.124885058323666, -3.124885058323666], ![-3.124885058323666, -3.5215145174049827], ![-3.124885058323666, -3.9203767788867454],
   ![-3.124885058323666, -4.3217850056545455]]

/-- `directionsArray`, `P/stencils/D2Q777.cpp:824-1619`, entries 504…531 -/
def dirBlock18 : List (Fin 2 → ℚ) :=
  [![3.124885058323666, -4.726076820871546], ![3.124885058323666, -5.133619099991676], ![3.124885058323666, 1.5550785670754994],
   ![-3.5215145174049827, 2.7301956753090653], ![3.5215145174049827, 2.7301956753090653], ![3.5215145174049827, 3.124885058323666],
   ![3.5215145174049827, 3.5215145174049827], ![3.5215145174049827, 3.9203767788867454], ![3.5215145174049827, 4.3217850056545455],
   ![3.5215145174049827, 4.726076820871546], ![-3.5215145174049827, -1.1655203235633913], ![-3.5215145174049827, -1.5550785670754994],
   ![-3.5215145174049827, 2.337170655140884], ![-3.5215145174049827, -1.9455483447849033], ![-3.5215145174049827, -2.337170655140884],
   ![-3.5215145174049827, -2.7301956753090653], ![-3.5215145174049827, -3.124885058323666], ![-3.5215145174049827, -3.5215145174049827],
   ![-3.5215145174049827, -3.9203767788867454], ![-3.5215145174049827, -4.3217850056545455], ![3.5215145174049827, -4.726076820871546],
   ![-3.5215145174049827, -4.726076820871546], ![-3.5215145174049827, 3.124885058323666], ![-3.5215145174049827, 3.5215145174049827],
   ![-3.5215145174049827, 4.726076820871546], ![3.5215145174049827, 2.337170655140884], ![-3.5215145174049827, -0.7766397181201957],
   ![3.5215145174049827, 1.9455483447849033]]

/-- `directionsArray`, `P/stencils/D2Q777.cpp:824-1619`, entries 532…559 -/
def dirBlock19 : List (Fin 2 → ℚ) :=
  [![3.5215145174049827, 1.5550785670754994], ![-3.5215145174049827, 1.9455483447849033], ![-3.5215145174049827, 1.5550785670754994],
   ![-3.5215145174049827, 1.1655203235633913], ![-3.5215145174049827, 0.7766397181201957], ![-3.5215145174049827, 0.3882080458814402],
   ![-3.5215145174049827, 0], ![-3.5215145174049827, -0.3882080458814402], ![3.5215145174049827, -4.3217850056545455],
   ![3.5215145174049827, -3.9203767788867454], ![3.5215145174049827, -3.5215145174049827], ![-3.5215145174049827, 4.3217850056545455],
   ![3.5215145174049827, -3.124885058323666], ![3.5215145174049827, -2.337170655140884], ![3.5215145174049827, -1.9455483447849033],
   ![3.5215145174049827, -1.5550785670754994], ![3.5215145174049827, -1.1655203235633913], ![3.5215145174049827, -0.7766397181201957],
   ![3.5215145174049827, -0.3882080458814402], ![3.5215145174049827, 0], ![3.5215145174049827, 0.3882080458814402],
   ![3.5215145174049827, 0.7766397181201957], ![3.5215145174049827, 1.1655203235633913], ![3.5215145174049827, -2.7301956753090653],
   ![-3.5215145174049827, 3.9203767788867454], ![-3.9203767788867454, -4.3217850056545455], ![3.9203767788867454, -3.5215145174049827],
   ![3.9203767788867454, 2.337170655140884]]

/-- `directionsArray`, `P/stencils/D2Q777.cpp:824-1619`, entries 560…587 -/
def dirBlock20 : List (Fin 2 → ℚ) :=
  [![3.9203767788867454, 2.7301956753090653], ![3.9203767788867454, 3.124885058323666], ![3.9203767788867454, 3.5215145174049827],
   ![3.9203767788867454, 3.9203767788867454], ![3.9203767788867454, 4.3217850056545455], ![3.9203767788867454, 4.726076820871546],
   ![3.9203767788867454, 1.1655203235633913], ![3.9203767788867454, -3.9203767788867454], ![3.9203767788867454, 0.7766397181201957],
   ![3.9203767788867454, -0.3882080458814402], ![3.9203767788867454, -0.7766397181201957], ![3.9203767788867454, -1.1655203235633913],
   ![3.9203767788867454, -1.5550785670754994], ![3.9203767788867454, -1.9455483447849033], ![3.9203767788867454, -2.337170655140884],
   ![3.9203767788867454, -2.7301956753090653], ![3.9203767788867454, -3.124885058323666], ![3.9203767788867454, 0.3882080458814402],
   ![3.9203767788867454, 0], ![-3.9203767788867454, 4.726076820871546], ![-3.9203767788867454, 4.3217850056545455],
   ![-3.9203767788867454, -3.9203767788867454], ![-3.9203767788867454, -3.5215145174049827], ![-3.9203767788867454, -3.124885058323666],
   ![-3.9203767788867454, -2.7301956753090653], ![-3.9203767788867454, -2.337170655140884], ![-3.9203767788867454, -1.9455483447849033],
   ![-3.9203767788867454, -1.5550785670754994]]

/-- `directionsArray`, `P/stencils/D2Q777.cpp:824-1619`, entries 588…615 -/
def dirBlock21 : List (Fin 2 → ℚ) :=
  [![3.9203767788867454, 1.5550785670754994], ![3.9203767788867454, -4.726076820871546], ![-3.9203767788867454, -4.726076820871546],
   ![-3.9203767788867454, -1.1655203235633913], ![-3.9203767788867454, -0.7766397181201957], ![3.9203767788867454, -4.3217850056545455],
   ![-3.9203767788867454, 0], ![-3.9203767788867454, 3.9203767788867454], ![-3.9203767788867454, 3.5215145174049827],
   ![-3.9203767788867454, 3.124885058323666], ![-3.9203767788867454, 2.7301956753090653], ![-3.9203767788867454, 2.337170655140884],
   ![-3.9203767788867454, 1.9455483447849033], ![-3.9203767788867454, -0.3882080458814402], ![-3.9203767788867454, 1.5550785670754994],
   ![-3.9203767788867454, 1.1655203235633913], ![-3.9203767788867454, 0.7766397181201957], ![-3.9203767788867454, 0.3882080458814402],
   ![3.9203767788867454, 1.9455483447849033], ![4.3217850056545455, -3.9203767788867454], ![4.3217850056545455, -3.5215145174049827],
   ![4.3217850056545455, -3.124885058323666], ![4.3217850056545455, -4.3217850056545455], ![4.3217850056545455, -2.337170655140884],
   ![4.3217850056545455, -1.5550785670754994], ![-4.3217850056545455, 3.9203767788867454], ![-4.3217850056545455, 3.5215145174049827],
   ![-4.3217850056545455, 3.124885058323666]]

/-- `directionsArray`, `P/stencils/D2Q777.cpp:824-1619`, entries 616…643 -/
def dirBlock22 : List (Fin 2 → ℚ) :=
  [![-4.3217850056545455, 2.7301956753090653], ![-4.3217850056545455, 2.337170655140884], ![-4.3217850056545455, 1.9455483447849033],
   ![-4.3217850056545455, 1.5550785670754994], ![-4.3217850056545455, 1.1655203235633913], ![-4.3217850056545455, 0.7766397181201957],
   ![-4.3217850056545455, 0.3882080458814402], ![-4.3217850056545455, 4.3217850056545455], ![4.3217850056545455, -1.9455483447849033],
   ![-4.3217850056545455, -0.7766397181201957], ![-4.3217850056545455, -1.1655203235633913], ![-4.3217850056545455, -1.5550785670754994],
   ![-4.3217850056545455, -1.9455483447849033], ![-4.3217850056545455, -2.337170655140884], ![-4.3217850056545455, -2.7301956753090653],
   ![-4.3217850056545455, -3.124885058323666], ![-4.3217850056545455, -3.5215145174049827], ![-4.3217850056545455, -3.9203767788867454],
   ![-4.3217850056545455, -4.3217850056545455], ![-4.3217850056545455, -0.3882080458814402], ![4.3217850056545455, -2.7301956753090653],
   ![-4.3217850056545455, 0], ![4.3217850056545455, 2.7301956753090653], ![4.3217850056545455, 2.337170655140884],
   ![4.3217850056545455, 1.1655203235633913], ![4.3217850056545455, 3.124885058323666], ![4.3217850056545455, 3.5215145174049827],
   ![4.3217850056545455, 3.9203767788867454]]

/-- `directionsArray`, `P/stencils/D2Q777.cpp:824-1619`, entries 644…671 -/
def dirBlock23 : List (Fin 2 → ℚ) :=
  [![4.3217850056545455, 4.3217850056545455], ![4.3217850056545455, 0.7766397181201957], ![4.3217850056545455, 0.3882080458814402],
   ![4.3217850056545455, 1.9455483447849033], ![4.3217850056545455, 0], ![4.3217850056545455, -0.7766397181201957],
   ![4.3217850056545455, -1.1655203235633913], ![4.3217850056545455, -0.3882080458814402], ![4.3217850056545455, 1.5550785670754994],
   ![-4.726076820871546, -1.9455483447849033], ![-4.726076820871546, -1.5550785670754994], ![-4.726076820871546, -1.1655203235633913],
   ![-4.726076820871546, -0.7766397181201957], ![-4.726076820871546, -0.3882080458814402], ![-4.726076820871546, 0],
   ![4.726076820871546, 0], ![-4.726076820871546, -2.337170655140884], ![-4.726076820871546, -2.7301956753090653],
   ![-4.726076820871546, -3.124885058323666], ![-4.726076820871546, -3.5215145174049827], ![-4.726076820871546, -3.9203767788867454],
   ![4.726076820871546, 1.5550785670754994], ![4.726076820871546, 1.9455483447849033], ![4.726076820871546, 2.337170655140884],
   ![4.726076820871546, 2.7301956753090653], ![4.726076820871546, 3.124885058323666], ![4.726076820871546, 3.5215145174049827],
   ![4.726076820871546, 3.9203767788867454]]

/-- `directionsArray`, `P/stencils/D2Q777.cpp:824-1619`, entries 672…699 -/
def dirBlock24 : List (Fin 2 → ℚ) :=
  [![-4.726076820871546, 0.3882080458814402], ![-4.726076820871546, 0.7766397181201957], ![-4.726076820871546, 3.5215145174049827],
   ![-4.726076820871546, 1.5550785670754994], ![4.726076820871546, 0.3882080458814402], ![4.726076820871546, 0.7766397181201957],
   ![4.726076820871546, 1.1655203235633913], ![4.726076820871546, -0.7766397181201957], ![4.726076820871546, -1.1655203235633913],
   ![4.726076820871546, -1.5550785670754994], ![4.726076820871546, -1.9455483447849033], ![-4.726076820871546, 1.1655203235633913],
   ![4.726076820871546, -2.7301956753090653], ![4.726076820871546, -2.337170655140884], ![4.726076820871546, -3.5215145174049827],
   ![4.726076820871546, -3.9203767788867454], ![-4.726076820871546, 3.9203767788867454], ![4.726076820871546, -0.3882080458814402],
   ![-4.726076820871546, 3.124885058323666], ![-4.726076820871546, 2.7301956753090653], ![-4.726076820871546, 2.337170655140884],
   ![-4.726076820871546, 1.9455483447849033], ![4.726076820871546, -3.124885058323666], ![5.133619099991676, -3.124885058323666],
   ![5.133619099991676, -2.7301956753090653], ![-5.133619099991676, -0.3882080458814402], ![5.133619099991676, -1.9455483447849033],
   ![5.133619099991676, -1.1655203235633913]]

/-- `directionsArray`, `P/stencils/D2Q777.cpp:824-1619`, entries 700…727 -/
def dirBlock25 : List (Fin 2 → ℚ) :=
  [![-5.133619099991676, -1.9455483447849033], ![-5.133619099991676, -2.337170655140884], ![-5.133619099991676, -2.7301956753090653],
   ![-5.133619099991676, -3.124885058323666], ![-5.133619099991676, 3.124885058323666], ![-5.133619099991676, 2.7301956753090653],
   ![-5.133619099991676, 2.337170655140884], ![5.133619099991676, -1.5550785670754994], ![-5.133619099991676, 1.9455483447849033],
   ![-5.133619099991676, 1.5550785670754994], ![5.133619099991676, -2.337170655140884], ![-5.133619099991676, 1.1655203235633913],
   ![-5.133619099991676, 0.7766397181201957], ![-5.133619099991676, 0.3882080458814402], ![-5.133619099991676, 0],
   ![5.133619099991676, 3.124885058323666], ![5.133619099991676, 2.7301956753090653], ![5.133619099991676, 2.337170655140884],
   ![5.133619099991676, 1.9455483447849033], ![5.133619099991676, 1.5550785670754994], ![5.133619099991676, 1.1655203235633913],
   ![5.133619099991676, 0.7766397181201957], ![5.133619099991676, 0.3882080458814402], ![-5.133619099991676, -0.7766397181201957],
   ![5.133619099991676, 0], ![5.133619099991676, -0.3882080458814402], ![5.133619099991676, -0.7766397181201957],
   ![-5.133619099991676, -1.5550785670754994]]

/-- `directionsArray`, `P/stencils/D2Q777.cpp:824-1619`, entries 728…755 -/
def dirBlock26 : List (Fin 2 → ℚ) :=
  [![-5.133619099991676, -1.1655203235633913], ![5.544813751984586, 0], ![5.544813751984586, 0.7766397181201957],
   ![5.544813751984586, 0.3882080458814402], ![5.544813751984586, -0.3882080458814402], ![5.544813751984586, -0.7766397181201957],
   ![5.544813751984586, -1.5550785670754994], ![5.544813751984586, -1.9455483447849033], ![5.544813751984586, -2.337170655140884],
   ![5.544813751984586, -2.7301956753090653], ![5.544813751984586, 1.1655203235633913], ![5.544813751984586, -1.1655203235633913],
   ![5.544813751984586, 1.9455483447849033], ![-5.544813751984586, -0.3882080458814402], ![-5.544813751984586, 0.3882080458814402],
   ![-5.544813751984586, 0], ![5.544813751984586, 2.337170655140884], ![-5.544813751984586, 1.5550785670754994],
   ![-5.544813751984586, -0.7766397181201957], ![-5.544813751984586, -1.1655203235633913], ![-5.544813751984586, -1.5550785670754994],
   ![-5.544813751984586, -1.9455483447849033], ![-5.544813751984586, -2.337170655140884], ![-5.544813751984586, -2.7301956753090653],
   ![5.544813751984586, 2.7301956753090653], ![5.544813751984586, 1.5550785670754994], ![-5.544813751984586, 1.9455483447849033],
   ![-5.544813751984586, 2.337170655140884]]

/-- `directionsArray`, `P/stencils/D2Q777.cpp:824-1619`, entries 756…776 -/
def dirBlock27 : List (Fin 2 → ℚ) :=
  [![-5.544813751984586, 2.7301956753090653], ![-5.544813751984586, 0.7766397181201957], ![-5.544813751984586, 1.1655203235633913],
   ![5.960104784881298, 0.3882080458814402], ![5.960104784881298, -1.5550785670754994], ![5.960104784881298, -0.7766397181201957],
   ![5.960104784881298, -0.3882080458814402], ![5.960104784881298, 0], ![5.960104784881298, 0.7766397181201957],
   ![5.960104784881298, -1.1655203235633913], ![-5.960104784881298, -1.5550785670754994], ![-5.960104784881298, 1.5550785670754994],
   ![-5.960104784881298, 1.1655203235633913], ![-5.960104784881298, 0.7766397181201957], ![-5.960104784881298, 0.3882080458814402],
   ![-5.960104784881298, 0], ![-5.960104784881298, -0.3882080458814402], ![-5.960104784881298, -0.7766397181201957],
   ![-5.960104784881298, -1.1655203235633913], ![5.960104784881298, 1.1655203235633913], ![5.960104784881298, 1.5550785670754994]]

/-- `directionsArray`, `P/stencils/D2Q777.cpp:824-1619`, in blocks of 28 entries -/
def dirBlocks : List (List (Fin 2 → ℚ)) :=
  [dirBlock0, dirBlock1, dirBlock2, dirBlock3, dirBlock4, dirBlock5, dirBlock6, dirBlock7,
   dirBlock8, dirBlock9, dirBlock10, dirBlock11, dirBlock12, dirBlock13, dirBlock14, dirBlock15,
   dirBlock16, dirBlock17, dirBlock18, dirBlock19, dirBlock20, dirBlock21, dirBlock22, dirBlock23,
   dirBlock24, dirBlock25, dirBlock26] ++ [dirBlock27]

/-- The `switch` of `getIndexOfOppositeDirection`, `P/stencils/D2Q777.h:67-2405`, entries 0…27 -/
def oppBlock0 : List (Fin 777) :=
  [0, 25, 24, 23, 22, 21, 20, 19, 17, 16, 15, 14, 13, 12, 11, 10, 9, 8,
   30, 7, 6, 5, 4, 3, 2, 1, 28, 29]

/-- The `switch` of `getIndexOfOppositeDirection`, `P/stencils/D2Q777.h:67-2405`, entries 28…55 -/
def oppBlock1 : List (Fin 777) :=
  [26, 27, 18, 45, 42, 41, 40, 39, 77, 38, 37, 35, 34, 33, 32, 51, 52, 31,
   53, 54, 74, 73, 72, 43, 44, 46, 47, 85]

/-- The `switch` of `getIndexOfOppositeDirection`, `P/stencils/D2Q777.h:67-2405`, entries 56…83 -/
def oppBlock2 : List (Fin 777) :=
  [80, 81, 82, 83, 84, 91, 86, 87, 71, 88, 90, 92, 78, 79, 76, 64, 50, 49,
   48, 89, 70, 36, 68, 69, 56, 57, 58, 59]

/-- The `switch` of `getIndexOfOppositeDirection`, `P/stencils/D2Q777.h:67-2405`, entries 84…111 -/
def oppBlock3 : List (Fin 777) :=
  [60, 55, 62, 63, 65, 75, 66, 61, 67, 136, 135, 134, 133, 132, 129, 130, 128, 127,
   126, 138, 131, 152, 145, 140, 141, 142, 143, 144]

/-- The `switch` of `getIndexOfOppositeDirection`, `P/stencils/D2Q777.h:67-2405`, entries 112…139 -/
def oppBlock4 : List (Fin 777) :=
  [125, 122, 147, 148, 149, 150, 151, 123, 139, 153, 113, 119, 137, 112, 102, 101, 100, 98,
   99, 104, 97, 96, 95, 94, 93, 124, 103, 120]

/-- The `switch` of `getIndexOfOppositeDirection`, `P/stencils/D2Q777.h:67-2405`, entries 140…167 -/
def oppBlock5 : List (Fin 777) :=
  [107, 108, 109, 110, 111, 106, 154, 114, 115, 116, 117, 118, 105, 121, 146, 192, 187, 188,
   189, 190, 191, 183, 193, 194, 195, 196, 197, 198]

/-- The `switch` of `getIndexOfOppositeDirection`, `P/stencils/D2Q777.h:67-2405`, entries 168…195 -/
def oppBlock6 : List (Fin 777) :=
  [199, 200, 201, 202, 203, 204, 205, 206, 207, 208, 209, 210, 211, 212, 213, 161, 186, 216,
   184, 156, 157, 158, 159, 160, 155, 162, 163, 164]

/-- The `switch` of `getIndexOfOppositeDirection`, `P/stencils/D2Q777.h:67-2405`, entries 196…223 -/
def oppBlock7 : List (Fin 777) :=
  [165, 166, 167, 168, 169, 170, 171, 172, 173, 174, 175, 176, 177, 178, 179, 180, 181, 182,
   215, 214, 185, 226, 229, 228, 227, 225, 224, 265]

/-- The `switch` of `getIndexOfOppositeDirection`, `P/stencils/D2Q777.h:67-2405`, entries 224…251 -/
def oppBlock8 : List (Fin 777) :=
  [222, 221, 217, 220, 219, 218, 237, 239, 260, 240, 259, 258, 257, 230, 256, 231, 233, 266,
   267, 268, 269, 270, 276, 272, 273, 274, 275, 278]

/-- The `switch` of `getIndexOfOppositeDirection`, `P/stencils/D2Q777.h:67-2405`, entries 252…279 -/
def oppBlock9 : List (Fin 777) :=
  [277, 263, 264, 261, 238, 236, 235, 234, 232, 255, 271, 253, 254, 223, 241, 242, 243, 244,
   245, 262, 247, 248, 249, 250, 246, 252, 251, 320]

/-- The `switch` of `getIndexOfOppositeDirection`, `P/stencils/D2Q777.h:67-2405`, entries 280…307 -/
def oppBlock10 : List (Fin 777) :=
  [319, 318, 317, 314, 315, 323, 313, 312, 311, 310, 316, 322, 335, 324, 334, 333, 332, 336,
   330, 328, 308, 327, 326, 325, 309, 321, 329, 331]

/-- The `switch` of `getIndexOfOppositeDirection`, `P/stencils/D2Q777.h:67-2405`, entries 308…335 -/
def oppBlock11 : List (Fin 777) :=
  [300, 304, 289, 288, 287, 286, 283, 284, 290, 282, 281, 280, 279, 305, 291, 285, 293, 303,
   302, 301, 299, 306, 298, 307, 296, 295, 294, 292]

/-- The `switch` of `getIndexOfOppositeDirection`, `P/stencils/D2Q777.h:67-2405`, entries 336…363 -/
def oppBlock12 : List (Fin 777) :=
  [297, 382, 393, 372, 392, 342, 341, 360, 391, 370, 385, 371, 369, 351, 361, 349, 373, 374,
   375, 376, 377, 378, 379, 380, 343, 350, 381, 394]

/-- The `switch` of `getIndexOfOppositeDirection`, `P/stencils/D2Q777.h:67-2405`, entries 364…391 -/
def oppBlock13 : List (Fin 777) :=
  [390, 389, 388, 387, 386, 348, 345, 347, 339, 352, 353, 354, 355, 356, 357, 358, 359, 362,
   337, 384, 383, 346, 368, 367, 366, 365, 364, 344]

/-- The `switch` of `getIndexOfOppositeDirection`, `P/stencils/D2Q777.h:67-2405`, entries 392…419 -/
def oppBlock14 : List (Fin 777) :=
  [340, 338, 363, 435, 436, 434, 442, 451, 412, 413, 414, 415, 416, 417, 423, 449, 450, 424,
   452, 433, 400, 401, 402, 403, 404, 405, 441, 440]

/-- The `switch` of `getIndexOfOppositeDirection`, `P/stencils/D2Q777.h:67-2405`, entries 420…447 -/
def oppBlock15 : List (Fin 777) :=
  [439, 438, 432, 406, 409, 448, 447, 446, 445, 444, 443, 437, 422, 411, 397, 395, 396, 431,
   421, 420, 419, 418, 398, 430, 429, 428, 427, 426]

/-- The `switch` of `getIndexOfOppositeDirection`, `P/stencils/D2Q777.h:67-2405`, entries 448…475 -/
def oppBlock16 : List (Fin 777) :=
  [425, 407, 408, 399, 410, 472, 471, 503, 502, 501, 500, 499, 498, 497, 495, 494, 493, 480,
   492, 490, 489, 488, 487, 454, 453, 481, 482, 483]

/-- The `switch` of `getIndexOfOppositeDirection`, `P/stencils/D2Q777.h:67-2405`, entries 476…503 -/
def oppBlock17 : List (Fin 777) :=
  [484, 491, 479, 478, 465, 473, 474, 475, 476, 504, 505, 470, 469, 468, 467, 477, 466, 464,
   463, 462, 506, 461, 460, 459, 458, 457, 456, 455]

/-- The `switch` of `getIndexOfOppositeDirection`, `P/stencils/D2Q777.h:67-2405`, entries 504…531 -/
def oppBlock18 : List (Fin 777) :=
  [485, 486, 496, 555, 519, 520, 521, 522, 523, 525, 554, 532, 545, 531, 529, 508, 509, 510,
   511, 512, 528, 513, 544, 542, 524, 518, 553, 517]

/-- The `switch` of `getIndexOfOppositeDirection`, `P/stencils/D2Q777.h:67-2405`, entries 532…559 -/
def oppBlock19 : List (Fin 777) :=
  [515, 546, 547, 548, 549, 550, 551, 552, 543, 556, 527, 540, 526, 516, 533, 534, 535, 536,
   537, 538, 539, 530, 514, 507, 541, 564, 596, 585]

/-- The `switch` of `getIndexOfOppositeDirection`, `P/stencils/D2Q777.h:67-2405`, entries 560…587 -/
def oppBlock20 : List (Fin 777) :=
  [584, 583, 582, 581, 557, 590, 591, 595, 592, 605, 604, 603, 602, 600, 599, 598, 597, 601,
   594, 589, 593, 563, 562, 561, 560, 559, 606, 588]

/-- The `switch` of `getIndexOfOppositeDirection`, `P/stencils/D2Q777.h:67-2405`, entries 588…615 -/
def oppBlock21 : List (Fin 777) :=
  [587, 579, 565, 566, 568, 580, 578, 567, 558, 576, 575, 574, 573, 577, 572, 571, 570, 569,
   586, 613, 614, 615, 623, 617, 619, 607, 608, 609]

/-- The `switch` of `getIndexOfOppositeDirection`, `P/stencils/D2Q777.h:67-2405`, entries 616…643 -/
def oppBlock22 : List (Fin 777) :=
  [636, 611, 624, 612, 650, 649, 651, 610, 618, 645, 640, 652, 647, 639, 638, 641, 642, 643,
   644, 646, 616, 648, 630, 629, 626, 631, 632, 633]

/-- The `switch` of `getIndexOfOppositeDirection`, `P/stencils/D2Q777.h:67-2405`, entries 644…671 -/
def oppBlock23 : List (Fin 777) :=
  [634, 625, 635, 628, 637, 621, 620, 622, 627, 666, 665, 678, 677, 676, 659, 658, 667, 668,
   669, 670, 671, 654, 653, 660, 661, 662, 663, 664]

/-- The `switch` of `getIndexOfOppositeDirection`, `P/stencils/D2Q777.h:67-2405`, entries 672…699 -/
def oppBlock24 : List (Fin 777) :=
  [689, 679, 686, 681, 657, 656, 655, 673, 683, 675, 693, 680, 691, 692, 674, 688, 687, 672,
   694, 684, 685, 682, 690, 704, 705, 722, 708, 711]

/-- The `switch` of `getIndexOfOppositeDirection`, `P/stencils/D2Q777.h:67-2405`, entries 700…727 -/
def oppBlock25 : List (Fin 777) :=
  [718, 717, 716, 715, 695, 696, 710, 709, 698, 707, 706, 699, 726, 725, 724, 703, 702, 701,
   700, 727, 728, 723, 697, 721, 714, 713, 712, 719]

/-- The `switch` of `getIndexOfOppositeDirection`, `P/stencils/D2Q777.h:67-2405`, entries 728…755 -/
def oppBlock26 : List (Fin 777) :=
  [720, 743, 746, 741, 742, 757, 745, 754, 755, 756, 747, 758, 749, 731, 732, 729, 750, 734,
   730, 738, 753, 740, 744, 752, 751, 748, 735, 736]

/-- The `switch` of `getIndexOfOppositeDirection`, `P/stencils/D2Q777.h:67-2405`, entries 756…776 -/
def oppBlock27 : List (Fin 777) :=
  [737, 733, 739, 772, 767, 769, 770, 771, 773, 768, 776, 760, 765, 761, 762, 763, 759, 764,
   775, 774, 766]

/-- The `switch` of `getIndexOfOppositeDirection`, `P/stencils/D2Q777.h:67-2405`, in blocks of 28 entries -/
def oppBlocks : List (List (Fin 777)) :=
  [oppBlock0, oppBlock1, oppBlock2, oppBlock3, oppBlock4, oppBlock5, oppBlock6, oppBlock7,
   oppBlock8, oppBlock9, oppBlock10, oppBlock11, oppBlock12, oppBlock13, oppBlock14, oppBlock15,
   oppBlock16, oppBlock17, oppBlock18, oppBlock19, oppBlock20, oppBlock21, oppBlock22, oppBlock23,
   oppBlock24, oppBlock25, oppBlock26] ++ [oppBlock27]

/-- The weights, `P/stencils/D2Q777.cpp:39-821` -/
def weightTable : List ℚ := weightBlocks.flatten

/-- The directions, `P/stencils/D2Q777.cpp:824-1619` -/
def dirTable : List (Fin 2 → ℚ) := dirBlocks.flatten

/-- The opposite directions, `P/stencils/D2Q777.h:67-2405` -/
def oppTable : List (Fin 777) := oppBlocks.flatten

/-- `D2Q777::D2Q777(scaling)`, `P/stencils/D2Q777.cpp:25-30`; `makeDirections` returns `scaling * directionsArray[i][a] / sqrt(3)` -/
noncomputable def stencil (c : ℝ) : Stencil ℝ 2 777 where
  weight i := ((weightTable.getD i 0 : ℚ) : ℝ)
  dir i a := let raw : Fin 2 → ℚ := dirTable.getD i 0
    c * ((raw a : ℚ) : ℝ) / √3
  opp i := oppTable.getD i 0
  cs2 := c * c / 3
  scaling := c

/-- `D2Q777::getMaxParticleVelocityMagnitude`, `P/stencils/D2Q777.h:2407-2409` -/
noncomputable def maxVelocity (c : ℝ) : ℝ := c * √2

end D2Q777

end NATriuM
