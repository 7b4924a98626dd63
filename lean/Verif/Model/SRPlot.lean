import Verif.Model.SR
import Mathlib.Algebra.Ring.Defs

/-!
# The file with the results on strongly regular graphs (exp/run_sr_exp.py:88-118) and the plot that reads it
(exp/plot_sr_cwn_results.py)
-/

namespace Verif

variable {V : Type}

/-- A text, as the list of its characters. -/
abbrev Text := List Char

/-- White space (`str.strip`, exp/plot_sr_cwn_results.py:38); simplified to the characters of ASCII that text files have. -/
def pySpace (c : Char) : Bool := c == ' ' || c == '\n' || c == '\t' || c == '\r'

/-- `str.strip` (exp/plot_sr_cwn_results.py:38-44). -/
def pyStrip (t : Text) : Text := ((t.dropWhile pySpace).reverse.dropWhile pySpace).reverse

/-- `str.split(':')` (exp/plot_sr_cwn_results.py:39, 44). -/
def splitColon : Text → List Text
  | [] => [[]]
  | c :: t =>
    if c = ':' then [] :: splitColon t
    else match splitColon t with
      | [] => [[c]]
      | w :: ws => (c :: w) :: ws

/-- The lines of a file, each with its line break (`for line in handle`, exp/plot_sr_cwn_results.py:36). -/
def fileLines : Text → List Text
  | [] => []
  | c :: t =>
    if c = '\n' then [c] :: fileLines t
    else match fileLines t with
      | [] => [[c]]
      | w :: ws => (c :: w) :: ws

/-- `__families__` (exp/run_sr_exp.py:17-27). -/
def srFamilies : List String :=
  ["sr16622", "sr251256", "sr261034", "sr281264", "sr291467", "sr351668", "sr351899", "sr361446", "sr401224"]

/-- The numbers that are written for a family (exp/run_sr_exp.py:97-100). -/
structure SRNumbers (V : Type) where
  mean : V
  stdErr : V
  min : V
  max : V

/-- The lines for a family (exp/run_sr_exp.py:101-107); `shown` is `str` of a number. -/
def familyText (shown : V → Text) (family : String) (s : SRNumbers V) : Text :=
  "------------------ ".toList ++ family.toList ++ " ------------------\n".toList ++
  "Mean failure rate:     ".toList ++ shown s.mean ++ "\n".toList ++
  "StdErr failure rate:   ".toList ++ shown s.stdErr ++ "\n".toList ++
  "Min failure rate:      ".toList ++ shown s.min ++ "\n".toList ++
  "Max failure rate:      ".toList ++ shown s.max ++ "\n".toList ++
  "-----------------------------------------------\n".toList

/-- What is written to `result.txt` (exp/run_sr_exp.py:88-118) for some families and their numbers. `items` is what
`str(args)` has between the brackets. -/
def srText (shown : V → Text) (sha items : Text) (blocks : List (String × SRNumbers V)) : Text :=
  "========= Final result ==========\n".toList ++
  "Datasets:               SR\n".toList ++
  "SHA:                    ".toList ++ sha ++ "\n".toList ++
  blocks.flatMap (fun p => familyText shown p.1 p.2) ++ "Namespace(".toList ++ items ++ ")".toList

/-- What is written to `result.txt`, with the families of the script. -/
def srFile (shown : V → Text) (sha items : Text) (sums : List (SRNumbers V)) : Text :=
  srText shown sha items (srFamilies.zip sums)

/-- `family_names` (exp/plot_sr_cwn_results.py:16-25). -/
def plotNames : List String :=
  ["SR(16,6,2,2)", "SR(25,12,5,6)", "SR(26,10,3,4)", "SR(28,12,6,4)", "SR(29,14,6,7)", "SR(35,16,6,8)",
   "SR(35,18,9,9)", "SR(36,14,4,6)", "SR(40,12,2,4)"]

/-- The variables of the loop over the lines: `mean` if `found`, `f`, and the dictionary in the order of insertion (the
keys are different names; exp/plot_sr_cwn_results.py:32-35). -/
structure PlotState (V : Type) where
  found : Option V := none
  count : Nat := 0
  results : List (String × V × V) := []

/-- `float(line.strip().split(':')[1].strip())`; `number` is `float`
(exp/plot_sr_cwn_results.py:39, 44). -/
def lineNumber (number : Text → Py V) (line : Text) : Py V := do
  let t ← getAt (splitColon (pyStrip line)) 1
  number (pyStrip t)

/-- The body of the loop (exp/plot_sr_cwn_results.py:37-47). -/
def plotLine (number : Text → Py V) (st : PlotState V) (line : Text) : Py (PlotState V) :=
  match st.found with
  | none =>
    if "Mean".toList.isPrefixOf (pyStrip line) then do
      let m ← lineNumber number line
      return { st with found := some m }
    else return st
  | some m => do
    let s ← lineNumber number line
    let name ← getAt plotNames st.count
    return { found := none, count := st.count + 1, results := st.results ++ [(name, m, s)] }

/-- The results of an experiment (exp/plot_sr_cwn_results.py:33-48). -/
def readResults (number : Text → Py V) (file : Text) : Py (List (String × V × V)) := do
  let st ← foldE (plotLine number) {} (fileLines file)
  pyAssert (decide (st.count = plotNames.length))
  return st.results

/-- `res[family]` (exp/plot_sr_cwn_results.py:75-76). -/
def resultOf (res : List (String × V × V)) (family : String) : Py (V × V) :=
  match res.lookup family with
  | some p => .ok p
  | none => .error .key

/-- The bars of an experiment (exp/plot_sr_cwn_results.py:73-79), one for each place on the axis: where it ends and its
error. The bars start at -10 and have height `10 + mean`. -/
def plotBars [Ring V] (res : List (String × V × V)) : Py (List (V × V)) :=
  mapE (fun family => do
    let r ← resultOf res family
    return (-10 + (10 + r.1), r.2)) ((res.map Prod.fst).mergeSort (fun a b => decide (a ≤ b)))

/-- The labels on the axis (exp/plot_sr_cwn_results.py:84). -/
def plotTicks : List String := plotNames

end Verif
