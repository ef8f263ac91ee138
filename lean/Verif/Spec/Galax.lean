import Verif.Model.Examples4
/-
What examples/galax.l1 writes, as a function of the random numbers.
-/
set_option autoImplicit false
namespace L1

variable (W : World)

/-- The element of a list that the `k`-th random number chooses: the number of the element is the remainder of the division by the length. -/
def pick {α : Type} [Inhabited α] (l : List α) (k : Nat) : α := l.getD (W.rand k % l.length) default

def galaxColors : List String := ["grey", "white", "yellow", "orange", "red", "purple", "blue", "black", "green"]
def galaxPairs : List String := ["greyish-white", "greyish-yellow", "yellow-orange", "orange-red", "purplish-blue", "greenish-black", "blue-green", "grey-green", "purple-grey", "reddish-black"]
def galaxLife : List (List String) := [["algae"], ["nanobes"], ["viruses"], ["carbon", "chains"], ["complex", "molecules"]]
def galaxDeeds : List (List String) := [["evolved"], ["started", "reproducing"], ["begun", "self-replicating"]]
def galaxPlaces : List String := ["dark", "smoky", "lava-filled", "wet", "icy", "sunny", "scorched"]
def galaxOn : List String := ["plateaus", "peaks", "mountaintops", "hills", "deserts"]
def galaxIn : List String := ["canyons", "rifts", "pits", "valleys", "craters"]

/-- An adjective; from three random numbers. -/
def galaxAdjective (k : Nat) : String :=
  pick W [pick W galaxColors k, pick W galaxPairs (k + 1), "slimy", "oozing", "gaseous", "vitreous", "microscopic", "metallic"] (k + 2)

/-- Where on the planet; from five random numbers. -/
def galaxPhrase (k : Nat) : List String :=
  pick W [["on", "the", pick W galaxPlaces k, pick W galaxOn (k + 1)], ["in", "the", pick W galaxPlaces (k + 2), pick W galaxIn (k + 3)]] (k + 4)

/-- The word with its first letter in upper case. -/
def upFirst (w : String) : String :=
  match w.toList with
  | [] => ""
  | c :: cs => String.ofList (c.toUpper :: cs)

/-- News from a planet; from 21 random numbers. -/
def galaxNews (planet : String) (k : Nat) : List String :=
  pick W
    [galaxAdjective W k :: (pick W galaxLife (k + 3) ++ "have" :: (pick W galaxDeeds (k + 4) ++ (galaxPhrase W (k + 5) ++ ["of", "planet", upFirst planet]))),
     galaxPhrase W (k + 10) ++ "of" :: "planet" :: (upFirst planet ++ ",") :: galaxAdjective W (k + 15) :: (pick W galaxLife (k + 18) ++ "have" :: pick W galaxDeeds (k + 19))]
    (k + 20)

/-- A line: the words separated by spaces, the first letter in upper case, and an exclamation mark at the end. -/
def exclaimLine (ws : List String) : List Char :=
  (match [' '].intercalate (ws.map String.toList) with
  | [] => []
  | c :: cs => c.toUpper :: cs) ++ ['!', '\n']

/-- The line made from the 22 random numbers from the `k`-th on. -/
def galaxLine (k : Nat) : List Char := exclaimLine (galaxNews W (pick W galaxNames k) (k + 1))

/-- `n` lines. -/
def galaxLineList : (n k : Nat) → List Char
  | 0, _ => []
  | n + 1, k => galaxLine W k ++ galaxLineList n (k + 22)

end L1
