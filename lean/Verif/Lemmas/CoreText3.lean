import Verif.Lemmas.CoreChunks
/- Reading the text of the core library (part 3), by computation in the kernel. -/
set_option autoImplicit false
namespace L1

set_option maxRecDepth 100000 in
theorem chunks_4 : chunksOk ((coreChars.drop 40).take 10) ((coreForms.drop 40).take 10) = true := by decide +kernel

end L1
