import Verif.Model.Examples
import Verif.Lemmas.CoreText
/- Reading the example programs. -/
set_option autoImplicit false
namespace L1

set_option maxRecDepth 100000 in
theorem read_fact : readText factText = .ok factForms := by decide +kernel
set_option maxRecDepth 100000 in
theorem read_tco : readText tcoText = .ok tcoForms := by decide +kernel
set_option maxRecDepth 100000 in
theorem read_hello : readText helloText = .ok helloForms := by decide +kernel
set_option maxRecDepth 100000 in
theorem read_fails : readText failsText = .ok failsForms := by decide +kernel
set_option maxRecDepth 100000 in
theorem read_primes : readText primesText = .ok primesForms := by decide +kernel
set_option maxRecDepth 100000 in
theorem read_badlex : readText badlexText = .ok [vlist [.atom "printl", vlist [.atom "+", .num 1, .num 2, .num 3, .atom "&", .num 4]]] := by decide +kernel
end L1
