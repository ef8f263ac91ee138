import Verif.Lemmas.CoreChunks
/- Reading the text of the core library (part 1), by computation in the kernel. -/
set_option autoImplicit false
namespace L1

set_option maxRecDepth 100000 in
theorem chunks_0 : chunksOk ((coreChars.drop 0).take 10) ((coreForms.drop 0).take 10) = true := by decide +kernel

set_option maxRecDepth 100000 in
theorem chunks_1 : chunksOk ((coreChars.drop 10).take 10) ((coreForms.drop 10).take 10) = true := by decide +kernel

end L1
