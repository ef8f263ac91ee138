import Verif.Lemmas.CoreChunks
/- Reading the text of the core library (part 4), by computation in the kernel. -/
set_option autoImplicit false
namespace L1

set_option maxRecDepth 100000 in
theorem chunks_5 : chunksOk ((coreChars.drop 50).take 10) ((coreForms.drop 50).take 10) = true := by decide +kernel

set_option maxRecDepth 100000 in
theorem chunks_6 : chunksOk ((coreChars.drop 60).take 10) ((coreForms.drop 60).take 10) = true := by decide +kernel

end L1
