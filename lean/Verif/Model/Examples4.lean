import Verif.Model.CoreLib
/-
GENERATED by scripts/gen_examples.py from /repo/examples; do not edit.
Example programs of the repository: their text, line by line; the forms; and the functions they define.
-/
set_option autoImplicit false
namespace L1

/-- The lines of examples/galax.l1. -/
def galaxLines : List String := [
  ";; (Partial) port to l1 of the \"zero player game\" Galax,",
  ";; https://github.com/eigenhombre/galax",
  "",
  "(defmacro defnth (name l) `(defn ~name () (randchoice ~l)))",
  "",
  "(defn one-of (() . forms)",
  "  (randchoice forms))",
  "",
  "(defn either (a b) (one-of a b))",
  "",
  "",
  "(defnth color '(grey white yellow orange red",
  "                purple blue black green))",
  "",
  "(defnth color-pair `(greyish-white",
  "                     greyish-yellow",
  "                     yellow-orange",
  "                     orange-red",
  "                     purplish-blue",
  "                     greenish-black",
  "                     blue-green",
  "                     grey-green",
  "                     purple-grey",
  "                     reddish-black))",
  "",
  "(defnth lifeforms `((algae)",
  "                    (nanobes)",
  "                    (viruses)",
  "                    (carbon chains)",
  "                    (complex molecules)))",
  "(color)",
  "",
  "(lifeforms)",
  "",
  "(defnth adjective `(~(color) ~(color-pair)",
  "                     slimy oozing gaseous vitreous",
  "                     microscopic metallic))",
  "",
  "(defnth evolved '((evolved)",
  "                  (started reproducing)",
  "                  (begun self-replicating)))",
  "",
  "(defnth place-adj '(dark smoky lava-filled",
  "                    wet icy sunny scorched))",
  "",
  "(defnth on-place-noun '(plateaus peaks mountaintops",
  "                        hills deserts))",
  "",
  "(defnth in-place-noun '(canyons rifts pits valleys craters))",
  "",
  "(defn place-phrase ()",
  "  (either",
  "   `(on the ~(place-adj) ~(on-place-noun))",
  "   `(in the ~(place-adj) ~(in-place-noun))))",
  "",
  "(defn itsalive (planet)",
  "  (exclaim",
  "   (either",
  "    `(~(adjective) ~@(lifeforms) have ~@(evolved)",
  "       ~@(place-phrase) of planet ~(capitalize planet))",
  "    `(~@ (place-phrase) of planet ~(comma (capitalize planet))",
  "         ~(adjective) ~@(lifeforms) have ~@(evolved)))))",
  "",
  "(def all-names",
  "    '(cathryn lelah rae almeda gillian katherine carla ola marlene",
  "      theodora myrtle trenton edward hedwig lucrecia mana jed sonya",
  "      yuri lyndon vasiliki creola george eladia brandie marty elisabeth",
  "      rayna rosa jeannie patrica gerald meridith colleen cammy vanessa",
  "      sau kenneth kenneth rosaline polly silvana carroll summer darby",
  "      chin whitney dana lezlie cameron gwyneth jarvis jeane may zandra",
  "      nannie amado xochitl reina chase denny aleisha rachal mireya",
  "      oretha carmen allyn lavina toshiko maire delmar tanja shawn dori",
  "      ramonita lavera brenda khalilah otis denny danika rachael rina",
  "      emilee alica garrett doloris ellis roland olen cheryll royce",
  "      dusty wilber lowell willia miki katharina mayra maida jeane dawn",
  "      kaley deann tosha damien elbert rickey nancee evette maryalice",
  "      lizette perla pam georgetta vickey alfreda soraya owen henry",
  "      sherron ray agnus coralie tori cary ida sueann lisette myrna",
  "      lesha lavon roosevelt karan micheline nevada bronwyn jenna",
  "      kristal ladonna adam karey casey aliza dahlia clemente alexia",
  "      sherly kimberlee etta hassie wilbur rufus reynaldo francie",
  "      shaunna tracy alessandra cora diamond ernest mel numbers scott",
  "      winona maisie kenda hallie guy darrin clair jamila ernestine",
  "      darwin yolanda rosita lacy honey napoleon neda terrence kizzy",
  "      celina daysi gearldine laine blythe hayley gerald yanira marilou",
  "      milford jude lanita wei kimiko demetra dionna tami jerrie masako",
  "      monnie isabella loida shelby louisa jamison ouida wynona wan chia",
  "      theola velva ebonie calista una luciano tora cruz claretha malena",
  "      kandis zina andra kenneth amie lena brande kelli charley cedrick",
  "      leland nellie cristina janell patience tawna fatima jessia kerri",
  "      kalyn michaela charmain connie ronnie keren patsy pedro arlene",
  "      anastacia rolando sherley lupe maricruz theo bridgette rosie ione",
  "      sherryl melynda cindie patience nigel josh cara desiree tristan",
  "      derrick blake alina maria donald vesta malena isobel harriett",
  "      seymour althea chet laverna taina paul delaine ilana soledad",
  "      randolph julie august tommye hung earleen jeanetta carter katrice",
  "      arlen cary vanna karlene zoe mila maurice aide jerald jonelle",
  "      lolita betsy charissa waneta maryanna isabell lorriane dante",
  "      stevie elenora jaymie marshall eunice matthew tristan lydia",
  "      lovetta laquanda dell sallie grayce tijuana nicholas cristen",
  "      cathi hulda wesley shawnta lakeshia henriette jessenia leo tyson",
  "      lonna shirley scotty xochitl carla leigh elenor rubi king crystal",
  "      jeremy mui darcy cecilia geoffrey kim danette jessica karly",
  "      newton yong johnny britta tisha ashely alvera sachiko timmy keena",
  "      leonie sammy edmond hyman maricruz vonnie joane lorine merrie",
  "      macie bernie vince tyree marco gail audry chloe albertha perry",
  "      elli cori marilynn myrna oliver laverna elwood minta violet rita",
  "      carlyn warren gary shirlee eloy jamila natisha annika courtney",
  "      eric margorie georgina arlene frankie macie bennie drucilla",
  "      ophelia isiah jayne hobert robert dion felipe alica carisa",
  "      louanne raylene melba joe everette emery chandra keitha adelia",
  "      salley carina nola meagan earle rita golden shavonne thea samira",
  "      octavia sadie kati lurlene lance juliane thomasina blossom scot",
  "      nikki shonda randi kyra glady linette robbie breana werner",
  "      romelia alma mckinley jon benjamin lieselotte twila theresia erin",
  "      delcie danny melisa evelin dwain beth merissa aurea na wendy",
  "      berry barabara mohamed amado jasmin margrett onie alpha luetta",
  "      ying bobby tommie jeannie earnest demetrice brandee zulma pansy",
  "      donella jimmy cheri coretta pearly marcell glinda leonie dorine",
  "      darryl tegan glenn nicholle shana donnie eustolia lane kenna abby",
  "      yon glen cheri ana jacqui wava zoraida edmundo aisha lorri ilona",
  "      silvana ralph tamekia abel viviana launa bradly latrice clint",
  "      ferne fannie becky elden johnie trula nannette juanita genny",
  "      shondra ghislaine zulma micheal bessie michael lyda irina mariam",
  "      allyn nichole valeri kayce lesia brock meridith nadine holley",
  "      shavonda freeda tyesha lakita jazmin arnetta suzi mina bernardina",
  "      roseann violette edmond lashonda dannie mirna jamel tiffani",
  "      kandice mitzie wen loretta cassondra romaine zachary harley",
  "      denese edward zola katerine kristal fransisca wava lucinda sha",
  "      tomiko ruth noemi tawny laurette donnetta darryl jamal coralie",
  "      tiffaney ashlie joelle catalina sidney earle consuela loren bret",
  "      janay yuko chantal paz annie harry allie alison octavia shanika",
  "      amber chantay mahalia mavis everett janay kimberli bernadette",
  "      dell mafalda chastity stewart liberty laurine analisa florinda",
  "      steve luz lauretta melanie margurite pamela bennie makeda",
  "      constance janeth liza larue theron jimmy marti denny merilyn",
  "      preston rene christinia lorri shavonne maia cheri arlinda",
  "      katerine lindsay madlyn alycia francine deadra cory elvis selena",
  "      renate kacey cyril zana jeri loan tommy henry kami christene joya",
  "      elisha cindie emil leda yi jutta buffy phillip aurelia rosette",
  "      mavis donte sima roseanna micki glen melany alan marlys basilia",
  "      grover ivan guillermina lea joseph belen jordan sharyn elnora",
  "      clarence sol fred armanda clara eleanora ming alaina tracie",
  "      adelina adrian jospeh karin zackary launa margrett booker",
  "      stephnie carri rodger kayce viva reynaldo sirena kyong janine",
  "      lazaro nathanial sharron charlesetta frances demarcus jesusita",
  "      akiko gerardo reda andres kelli aundrea so lorilee latrisha",
  "      ladonna gloria fonda rafaela milissa lucile otis dallas doyle",
  "      darrin tasha tommy dawna julietta kurt remedios mark chelsea",
  "      audrie alisha gladis alfonzo britany jeromy keren sydney davina",
  "      elmer eun marquis franklin sandi lazaro norah coral blythe",
  "      eldridge jack mary leola margorie lashay roseline florentina",
  "      donetta lourie lauretta corie shaniqua claudia kasey staci ashlee",
  "      delbert jeremy gale stephanie shanta alysia freida alisha brooke",
  "      alva ginny deb leonore anisha bronwyn blondell lynsey tyron",
  "      marlon christie erin dagny jarod peter crystal osvaldo vannessa",
  "      meg fe shamika karine sharlene kitty eduardo ashlyn sherie suzi",
  "      jonathan alphonso berry tula maxine taylor idella tonita carole",
  "      breanne thuy glendora daphine shandi nelda fredericka lizzie",
  "      zenia mariann grisel marissa terica crystal maryrose reynaldo",
  "      issac renay celena geralyn clarence jovan alane gwen wendi",
  "      mathilda jessie christi orpha junko eladia janae rosendo gracie",
  "      melva lonnie valarie debroah ladonna mikki idella lorina lincoln",
  "      starr marica lenna gwen catherin meredith lala delisa mervin",
  "      tyler fumiko marion irvin hyman tommye devin keila dottie",
  "      kimberlie hanh cruz kyong gregoria aron julianne adelia orville",
  "      robin brian lia karri dollie kitty elodia glenn dakota marica",
  "      rubin dustin ligia sylvia harold deandra vina bertha dodie callie",
  "      johnny jolanda velia brooke valentin alisa naoma kourtney",
  "      giovanni nicolas corene azzie harris blythe julianne annette",
  "      lauran ione anjelica aracelis yevette jenee philomena chara jutta",
  "      enola cammy dolores thurman lilliana alejandra otis van gerry",
  "      mikel gwenn liz janna roxanna lucia keshia earl bert easter",
  "      darlena arlinda arlen junita margeret anette selina wilma reena",
  "      tessa delma))",
  "",
  "(dotimes 10",
  "  (printl (itsalive (randchoice all-names))))",
  ""]

/-- The text of examples/galax.l1. -/
def galaxText : List Char := joinNl (galaxLines.map String.toList)

/-- The names of planets, examples/galax.l1:64. -/
def galaxNames : List String := ["cathryn", "lelah", "rae", "almeda", "gillian", "katherine", "carla", "ola", "marlene", "theodora", "myrtle", "trenton", "edward", "hedwig", "lucrecia", "mana", "jed", "sonya", "yuri", "lyndon", "vasiliki", "creola", "george", "eladia", "brandie", "marty", "elisabeth", "rayna", "rosa", "jeannie", "patrica", "gerald", "meridith", "colleen", "cammy", "vanessa", "sau", "kenneth", "kenneth", "rosaline", "polly", "silvana", "carroll", "summer", "darby", "chin", "whitney", "dana", "lezlie", "cameron", "gwyneth", "jarvis", "jeane", "may", "zandra", "nannie", "amado", "xochitl", "reina", "chase", "denny", "aleisha", "rachal", "mireya", "oretha", "carmen", "allyn", "lavina", "toshiko", "maire", "delmar", "tanja", "shawn", "dori", "ramonita", "lavera", "brenda", "khalilah", "otis", "denny", "danika", "rachael", "rina", "emilee", "alica", "garrett", "doloris", "ellis", "roland", "olen", "cheryll", "royce", "dusty", "wilber", "lowell", "willia", "miki", "katharina", "mayra", "maida", "jeane", "dawn", "kaley", "deann", "tosha", "damien", "elbert", "rickey", "nancee", "evette", "maryalice", "lizette", "perla", "pam", "georgetta", "vickey", "alfreda", "soraya", "owen", "henry", "sherron", "ray", "agnus", "coralie", "tori", "cary", "ida", "sueann", "lisette", "myrna", "lesha", "lavon", "roosevelt", "karan", "micheline", "nevada", "bronwyn", "jenna", "kristal", "ladonna", "adam", "karey", "casey", "aliza", "dahlia", "clemente", "alexia", "sherly", "kimberlee", "etta", "hassie", "wilbur", "rufus", "reynaldo", "francie", "shaunna", "tracy", "alessandra", "cora", "diamond", "ernest", "mel", "numbers", "scott", "winona", "maisie", "kenda", "hallie", "guy", "darrin", "clair", "jamila", "ernestine", "darwin", "yolanda", "rosita", "lacy", "honey", "napoleon", "neda", "terrence", "kizzy", "celina", "daysi", "gearldine", "laine", "blythe", "hayley", "gerald", "yanira", "marilou", "milford", "jude", "lanita", "wei", "kimiko", "demetra", "dionna", "tami", "jerrie", "masako", "monnie", "isabella", "loida", "shelby", "louisa", "jamison", "ouida", "wynona", "wan", "chia", "theola", "velva", "ebonie", "calista", "una", "luciano", "tora", "cruz", "claretha", "malena", "kandis", "zina", "andra", "kenneth", "amie", "lena", "brande", "kelli", "charley", "cedrick", "leland", "nellie", "cristina", "janell", "patience", "tawna", "fatima", "jessia", "kerri", "kalyn", "michaela", "charmain", "connie", "ronnie", "keren", "patsy", "pedro", "arlene", "anastacia", "rolando", "sherley", "lupe", "maricruz", "theo", "bridgette", "rosie", "ione", "sherryl", "melynda", "cindie", "patience", "nigel", "josh", "cara", "desiree", "tristan", "derrick", "blake", "alina", "maria", "donald", "vesta", "malena", "isobel", "harriett", "seymour", "althea", "chet", "laverna", "taina", "paul", "delaine", "ilana", "soledad", "randolph", "julie", "august", "tommye", "hung", "earleen", "jeanetta", "carter", "katrice", "arlen", "cary", "vanna", "karlene", "zoe", "mila", "maurice", "aide", "jerald", "jonelle", "lolita", "betsy", "charissa", "waneta", "maryanna", "isabell", "lorriane", "dante", "stevie", "elenora", "jaymie", "marshall", "eunice", "matthew", "tristan", "lydia", "lovetta", "laquanda", "dell", "sallie", "grayce", "tijuana", "nicholas", "cristen", "cathi", "hulda", "wesley", "shawnta", "lakeshia", "henriette", "jessenia", "leo", "tyson", "lonna", "shirley", "scotty", "xochitl", "carla", "leigh", "elenor", "rubi", "king", "crystal", "jeremy", "mui", "darcy", "cecilia", "geoffrey", "kim", "danette", "jessica", "karly", "newton", "yong", "johnny", "britta", "tisha", "ashely", "alvera", "sachiko", "timmy", "keena", "leonie", "sammy", "edmond", "hyman", "maricruz", "vonnie", "joane", "lorine", "merrie", "macie", "bernie", "vince", "tyree", "marco", "gail", "audry", "chloe", "albertha", "perry", "elli", "cori", "marilynn", "myrna", "oliver", "laverna", "elwood", "minta", "violet", "rita", "carlyn", "warren", "gary", "shirlee", "eloy", "jamila", "natisha", "annika", "courtney", "eric", "margorie", "georgina", "arlene", "frankie", "macie", "bennie", "drucilla", "ophelia", "isiah", "jayne", "hobert", "robert", "dion", "felipe", "alica", "carisa", "louanne", "raylene", "melba", "joe", "everette", "emery", "chandra", "keitha", "adelia", "salley", "carina", "nola", "meagan", "earle", "rita", "golden", "shavonne", "thea", "samira", "octavia", "sadie", "kati", "lurlene", "lance", "juliane", "thomasina", "blossom", "scot", "nikki", "shonda", "randi", "kyra", "glady", "linette", "robbie", "breana", "werner", "romelia", "alma", "mckinley", "jon", "benjamin", "lieselotte", "twila", "theresia", "erin", "delcie", "danny", "melisa", "evelin", "dwain", "beth", "merissa", "aurea", "na", "wendy", "berry", "barabara", "mohamed", "amado", "jasmin", "margrett", "onie", "alpha", "luetta", "ying", "bobby", "tommie", "jeannie", "earnest", "demetrice", "brandee", "zulma", "pansy", "donella", "jimmy", "cheri", "coretta", "pearly", "marcell", "glinda", "leonie", "dorine", "darryl", "tegan", "glenn", "nicholle", "shana", "donnie", "eustolia", "lane", "kenna", "abby", "yon", "glen", "cheri", "ana", "jacqui", "wava", "zoraida", "edmundo", "aisha", "lorri", "ilona", "silvana", "ralph", "tamekia", "abel", "viviana", "launa", "bradly", "latrice", "clint", "ferne", "fannie", "becky", "elden", "johnie", "trula", "nannette", "juanita", "genny", "shondra", "ghislaine", "zulma", "micheal", "bessie", "michael", "lyda", "irina", "mariam", "allyn", "nichole", "valeri", "kayce", "lesia", "brock", "meridith", "nadine", "holley", "shavonda", "freeda", "tyesha", "lakita", "jazmin", "arnetta", "suzi", "mina", "bernardina", "roseann", "violette", "edmond", "lashonda", "dannie", "mirna", "jamel", "tiffani", "kandice", "mitzie", "wen", "loretta", "cassondra", "romaine", "zachary", "harley", "denese", "edward", "zola", "katerine", "kristal", "fransisca", "wava", "lucinda", "sha", "tomiko", "ruth", "noemi", "tawny", "laurette", "donnetta", "darryl", "jamal", "coralie", "tiffaney", "ashlie", "joelle", "catalina", "sidney", "earle", "consuela", "loren", "bret", "janay", "yuko", "chantal", "paz", "annie", "harry", "allie", "alison", "octavia", "shanika", "amber", "chantay", "mahalia", "mavis", "everett", "janay", "kimberli", "bernadette", "dell", "mafalda", "chastity", "stewart", "liberty", "laurine", "analisa", "florinda", "steve", "luz", "lauretta", "melanie", "margurite", "pamela", "bennie", "makeda", "constance", "janeth", "liza", "larue", "theron", "jimmy", "marti", "denny", "merilyn", "preston", "rene", "christinia", "lorri", "shavonne", "maia", "cheri", "arlinda", "katerine", "lindsay", "madlyn", "alycia", "francine", "deadra", "cory", "elvis", "selena", "renate", "kacey", "cyril", "zana", "jeri", "loan", "tommy", "henry", "kami", "christene", "joya", "elisha", "cindie", "emil", "leda", "yi", "jutta", "buffy", "phillip", "aurelia", "rosette", "mavis", "donte", "sima", "roseanna", "micki", "glen", "melany", "alan", "marlys", "basilia", "grover", "ivan", "guillermina", "lea", "joseph", "belen", "jordan", "sharyn", "elnora", "clarence", "sol", "fred", "armanda", "clara", "eleanora", "ming", "alaina", "tracie", "adelina", "adrian", "jospeh", "karin", "zackary", "launa", "margrett", "booker", "stephnie", "carri", "rodger", "kayce", "viva", "reynaldo", "sirena", "kyong", "janine", "lazaro", "nathanial", "sharron", "charlesetta", "frances", "demarcus", "jesusita", "akiko", "gerardo", "reda", "andres", "kelli", "aundrea", "so", "lorilee", "latrisha", "ladonna", "gloria", "fonda", "rafaela", "milissa", "lucile", "otis", "dallas", "doyle", "darrin", "tasha", "tommy", "dawna", "julietta", "kurt", "remedios", "mark", "chelsea", "audrie", "alisha", "gladis", "alfonzo", "britany", "jeromy", "keren", "sydney", "davina", "elmer", "eun", "marquis", "franklin", "sandi", "lazaro", "norah", "coral", "blythe", "eldridge", "jack", "mary", "leola", "margorie", "lashay", "roseline", "florentina", "donetta", "lourie", "lauretta", "corie", "shaniqua", "claudia", "kasey", "staci", "ashlee", "delbert", "jeremy", "gale", "stephanie", "shanta", "alysia", "freida", "alisha", "brooke", "alva", "ginny", "deb", "leonore", "anisha", "bronwyn", "blondell", "lynsey", "tyron", "marlon", "christie", "erin", "dagny", "jarod", "peter", "crystal", "osvaldo", "vannessa", "meg", "fe", "shamika", "karine", "sharlene", "kitty", "eduardo", "ashlyn", "sherie", "suzi", "jonathan", "alphonso", "berry", "tula", "maxine", "taylor", "idella", "tonita", "carole", "breanne", "thuy", "glendora", "daphine", "shandi", "nelda", "fredericka", "lizzie", "zenia", "mariann", "grisel", "marissa", "terica", "crystal", "maryrose", "reynaldo", "issac", "renay", "celena", "geralyn", "clarence", "jovan", "alane", "gwen", "wendi", "mathilda", "jessie", "christi", "orpha", "junko", "eladia", "janae", "rosendo", "gracie", "melva", "lonnie", "valarie", "debroah", "ladonna", "mikki", "idella", "lorina", "lincoln", "starr", "marica", "lenna", "gwen", "catherin", "meredith", "lala", "delisa", "mervin", "tyler", "fumiko", "marion", "irvin", "hyman", "tommye", "devin", "keila", "dottie", "kimberlie", "hanh", "cruz", "kyong", "gregoria", "aron", "julianne", "adelia", "orville", "robin", "brian", "lia", "karri", "dollie", "kitty", "elodia", "glenn", "dakota", "marica", "rubin", "dustin", "ligia", "sylvia", "harold", "deandra", "vina", "bertha", "dodie", "callie", "johnny", "jolanda", "velia", "brooke", "valentin", "alisa", "naoma", "kourtney", "giovanni", "nicolas", "corene", "azzie", "harris", "blythe", "julianne", "annette", "lauran", "ione", "anjelica", "aracelis", "yevette", "jenee", "philomena", "chara", "jutta", "enola", "cammy", "dolores", "thurman", "lilliana", "alejandra", "otis", "van", "gerry", "mikel", "gwenn", "liz", "janna", "roxanna", "lucia", "keshia", "earl", "bert", "easter", "darlena", "arlinda", "arlen", "junita", "margeret", "anette", "selina", "wilma", "reena", "tessa", "delma"]

/-- The forms of examples/galax.l1. -/
def galaxForms : List Val := [
  vlist [.atom "defmacro", .atom "defnth", vlist [.atom "name", .atom "l"], vlist [.atom "syntax-quote", vlist [.atom "defn", vlist [.atom "unquote", .atom "name"], .nil, vlist [.atom "randchoice", vlist [.atom "unquote", .atom "l"]]]]],
  vlist [.atom "defn", .atom "one-of", mkList [.nil] (.atom "forms"), vlist [.atom "randchoice", .atom "forms"]],
  vlist [.atom "defn", .atom "either", vlist [.atom "a", .atom "b"], vlist [.atom "one-of", .atom "a", .atom "b"]],
  vlist [.atom "defnth", .atom "color", vlist [.atom "quote", vlist [.atom "grey", .atom "white", .atom "yellow", .atom "orange", .atom "red", .atom "purple", .atom "blue", .atom "black", .atom "green"]]],
  vlist [.atom "defnth", .atom "color-pair", vlist [.atom "syntax-quote", vlist [.atom "greyish-white", .atom "greyish-yellow", .atom "yellow-orange", .atom "orange-red", .atom "purplish-blue", .atom "greenish-black", .atom "blue-green", .atom "grey-green", .atom "purple-grey", .atom "reddish-black"]]],
  vlist [.atom "defnth", .atom "lifeforms", vlist [.atom "syntax-quote", vlist [vlist [.atom "algae"], vlist [.atom "nanobes"], vlist [.atom "viruses"], vlist [.atom "carbon", .atom "chains"], vlist [.atom "complex", .atom "molecules"]]]],
  vlist [.atom "color"],
  vlist [.atom "lifeforms"],
  vlist [.atom "defnth", .atom "adjective", vlist [.atom "syntax-quote", vlist [vlist [.atom "unquote", vlist [.atom "color"]], vlist [.atom "unquote", vlist [.atom "color-pair"]], .atom "slimy", .atom "oozing", .atom "gaseous", .atom "vitreous", .atom "microscopic", .atom "metallic"]]],
  vlist [.atom "defnth", .atom "evolved", vlist [.atom "quote", vlist [vlist [.atom "evolved"], vlist [.atom "started", .atom "reproducing"], vlist [.atom "begun", .atom "self-replicating"]]]],
  vlist [.atom "defnth", .atom "place-adj", vlist [.atom "quote", vlist [.atom "dark", .atom "smoky", .atom "lava-filled", .atom "wet", .atom "icy", .atom "sunny", .atom "scorched"]]],
  vlist [.atom "defnth", .atom "on-place-noun", vlist [.atom "quote", vlist [.atom "plateaus", .atom "peaks", .atom "mountaintops", .atom "hills", .atom "deserts"]]],
  vlist [.atom "defnth", .atom "in-place-noun", vlist [.atom "quote", vlist [.atom "canyons", .atom "rifts", .atom "pits", .atom "valleys", .atom "craters"]]],
  vlist [.atom "defn", .atom "place-phrase", .nil, vlist [.atom "either", vlist [.atom "syntax-quote", vlist [.atom "on", .atom "the", vlist [.atom "unquote", vlist [.atom "place-adj"]], vlist [.atom "unquote", vlist [.atom "on-place-noun"]]]], vlist [.atom "syntax-quote", vlist [.atom "in", .atom "the", vlist [.atom "unquote", vlist [.atom "place-adj"]], vlist [.atom "unquote", vlist [.atom "in-place-noun"]]]]]],
  vlist [.atom "defn", .atom "itsalive", vlist [.atom "planet"], vlist [.atom "exclaim", vlist [.atom "either", vlist [.atom "syntax-quote", vlist [vlist [.atom "unquote", vlist [.atom "adjective"]], vlist [.atom "splicing-unquote", vlist [.atom "lifeforms"]], .atom "have", vlist [.atom "splicing-unquote", vlist [.atom "evolved"]], vlist [.atom "splicing-unquote", vlist [.atom "place-phrase"]], .atom "of", .atom "planet", vlist [.atom "unquote", vlist [.atom "capitalize", .atom "planet"]]]], vlist [.atom "syntax-quote", vlist [vlist [.atom "splicing-unquote", vlist [.atom "place-phrase"]], .atom "of", .atom "planet", vlist [.atom "unquote", vlist [.atom "comma", vlist [.atom "capitalize", .atom "planet"]]], vlist [.atom "unquote", vlist [.atom "adjective"]], vlist [.atom "splicing-unquote", vlist [.atom "lifeforms"]], .atom "have", vlist [.atom "splicing-unquote", vlist [.atom "evolved"]]]]]]],
  vlist [.atom "def", .atom "all-names", vlist [.atom "quote", vlist (galaxNames.map .atom)]],
  vlist [.atom "dotimes", .num 10, vlist [.atom "printl", vlist [.atom "itsalive", vlist [.atom "randchoice", .atom "all-names"]]]]]

/-- The macro `defnth`, examples/galax.l1:4. -/
def g_defnth : Val := .lam ["name", "l"] "" (vlist [vlist [.atom "syntax-quote", vlist [.atom "defn", vlist [.atom "unquote", .atom "name"], .nil, vlist [.atom "randchoice", vlist [.atom "unquote", .atom "l"]]]]]) .nil true 0

/-- `one-of`, examples/galax.l1:6, as a function value. -/
def g_one_of : Val := .lam [] "forms" (vlist [vlist [.atom "randchoice", .atom "forms"]]) .nil false 0

/-- `either`, examples/galax.l1:9, as a function value. -/
def g_either : Val := .lam ["a", "b"] "" (vlist [vlist [.atom "one-of", .atom "a", .atom "b"]]) .nil false 0

/-- `color`, defined with `defnth` in examples/galax.l1:12, as a function value. -/
def g_color : Val := .lam [] "" (vlist [vlist [.atom "randchoice", vlist [.atom "quote", vlist [.atom "grey", .atom "white", .atom "yellow", .atom "orange", .atom "red", .atom "purple", .atom "blue", .atom "black", .atom "green"]]]]) .nil false 0

/-- `color-pair`, defined with `defnth` in examples/galax.l1:15, as a function value. -/
def g_color_pair : Val := .lam [] "" (vlist [vlist [.atom "randchoice", vlist [.atom "syntax-quote", vlist [.atom "greyish-white", .atom "greyish-yellow", .atom "yellow-orange", .atom "orange-red", .atom "purplish-blue", .atom "greenish-black", .atom "blue-green", .atom "grey-green", .atom "purple-grey", .atom "reddish-black"]]]]) .nil false 0

/-- `lifeforms`, defined with `defnth` in examples/galax.l1:26, as a function value. -/
def g_lifeforms : Val := .lam [] "" (vlist [vlist [.atom "randchoice", vlist [.atom "syntax-quote", vlist [vlist [.atom "algae"], vlist [.atom "nanobes"], vlist [.atom "viruses"], vlist [.atom "carbon", .atom "chains"], vlist [.atom "complex", .atom "molecules"]]]]]) .nil false 0

/-- `adjective`, defined with `defnth` in examples/galax.l1:35, as a function value. -/
def g_adjective : Val := .lam [] "" (vlist [vlist [.atom "randchoice", vlist [.atom "syntax-quote", vlist [vlist [.atom "unquote", vlist [.atom "color"]], vlist [.atom "unquote", vlist [.atom "color-pair"]], .atom "slimy", .atom "oozing", .atom "gaseous", .atom "vitreous", .atom "microscopic", .atom "metallic"]]]]) .nil false 0

/-- `evolved`, defined with `defnth` in examples/galax.l1:39, as a function value. -/
def g_evolved : Val := .lam [] "" (vlist [vlist [.atom "randchoice", vlist [.atom "quote", vlist [vlist [.atom "evolved"], vlist [.atom "started", .atom "reproducing"], vlist [.atom "begun", .atom "self-replicating"]]]]]) .nil false 0

/-- `place-adj`, defined with `defnth` in examples/galax.l1:43, as a function value. -/
def g_place_adj : Val := .lam [] "" (vlist [vlist [.atom "randchoice", vlist [.atom "quote", vlist [.atom "dark", .atom "smoky", .atom "lava-filled", .atom "wet", .atom "icy", .atom "sunny", .atom "scorched"]]]]) .nil false 0

/-- `on-place-noun`, defined with `defnth` in examples/galax.l1:46, as a function value. -/
def g_on_place_noun : Val := .lam [] "" (vlist [vlist [.atom "randchoice", vlist [.atom "quote", vlist [.atom "plateaus", .atom "peaks", .atom "mountaintops", .atom "hills", .atom "deserts"]]]]) .nil false 0

/-- `in-place-noun`, defined with `defnth` in examples/galax.l1:49, as a function value. -/
def g_in_place_noun : Val := .lam [] "" (vlist [vlist [.atom "randchoice", vlist [.atom "quote", vlist [.atom "canyons", .atom "rifts", .atom "pits", .atom "valleys", .atom "craters"]]]]) .nil false 0

/-- `place-phrase`, examples/galax.l1:51, as a function value. -/
def g_place_phrase : Val := .lam [] "" (vlist [vlist [.atom "either", vlist [.atom "syntax-quote", vlist [.atom "on", .atom "the", vlist [.atom "unquote", vlist [.atom "place-adj"]], vlist [.atom "unquote", vlist [.atom "on-place-noun"]]]], vlist [.atom "syntax-quote", vlist [.atom "in", .atom "the", vlist [.atom "unquote", vlist [.atom "place-adj"]], vlist [.atom "unquote", vlist [.atom "in-place-noun"]]]]]]) .nil false 0

/-- `itsalive`, examples/galax.l1:56, as a function value. -/
def g_itsalive : Val := .lam ["planet"] "" (vlist [vlist [.atom "exclaim", vlist [.atom "either", vlist [.atom "syntax-quote", vlist [vlist [.atom "unquote", vlist [.atom "adjective"]], vlist [.atom "splicing-unquote", vlist [.atom "lifeforms"]], .atom "have", vlist [.atom "splicing-unquote", vlist [.atom "evolved"]], vlist [.atom "splicing-unquote", vlist [.atom "place-phrase"]], .atom "of", .atom "planet", vlist [.atom "unquote", vlist [.atom "capitalize", .atom "planet"]]]], vlist [.atom "syntax-quote", vlist [vlist [.atom "splicing-unquote", vlist [.atom "place-phrase"]], .atom "of", .atom "planet", vlist [.atom "unquote", vlist [.atom "comma", vlist [.atom "capitalize", .atom "planet"]]], vlist [.atom "unquote", vlist [.atom "adjective"]], vlist [.atom "splicing-unquote", vlist [.atom "lifeforms"]], .atom "have", vlist [.atom "splicing-unquote", vlist [.atom "evolved"]]]]]]]) .nil false 0

end L1
