import Verif.Lemmas.CoreChunks
/- Reading the text of the core library (part 2), by computation in the kernel. -/
set_option autoImplicit false
namespace L1

set_option maxRecDepth 100000 in
theorem chunks_2 : chunksOk ((coreChars.drop 20).take 10) ((coreForms.drop 20).take 10) = true := by decide +kernel

set_option maxRecDepth 100000 in
theorem chunks_3 : chunksOk ((coreChars.drop 30).take 10) ((coreForms.drop 30).take 10) = true := by decide +kernel

end L1
