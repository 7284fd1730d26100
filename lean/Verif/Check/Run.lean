import Verif.Check.Limits
import Verif.Check.Observe
import Verif.Check.States
import Verif.Check.Text
import Verif.Check.TextCollide
import Verif.Check.TextDecides
import Verif.Check.TextCopy
import Verif.Check.TextResume
import Verif.Check.TextStored
import Verif.Check.TextTags
import Verif.Check.TextConstants
import Verif.Check.TextSorted
import Verif.Check.TextSiphash
import Verif.Check.TextEngines
import Verif.Check.TextWork
import Verif.Check.TextHash
import Verif.Check.TextLeft
import Verif.Check.TextLimits
import Verif.Check.TextMid
import Verif.Check.TextPermute
import Verif.Check.TextSeen
import Verif.Check.TextSerde
import Verif.Check.TextKept
import Verif.Check.TextErrors
import Verif.Check.TextMoves
import Verif.Check.OtherSerde
import Verif.Check.TextSize
import Verif.Check.TextSchema
import Verif.Check.TextUnkeyed
import Verif.Check.TextCuts
import Verif.Check.TextMulti
import Verif.Check.TextTypes
import Verif.Check.TextVerify
import Verif.Check.Values
import Verif.Check.Work

/-!
Prints the value of every check of `Verif.Check`: `lake env lean --run` this file.  With the argument
`text`, only of those about the translated text; with `first`, stops after the first that is false; with
names such as `C84`, only the checks of those properties.
-/

def main (args : List String) : IO Unit := do
  let model := Chf.Check.checks ++ Chf.Check.valueChecks ++ Chf.Check.limitChecks ++
    Chf.Check.workChecks ++ Chf.Check.stateChecks ++ Chf.Check.observeChecks
  let text := Chf.Check.textSerdeChecks ++ Chf.Check.textTypeChecks ++ Chf.Check.textChecks ++
    Chf.Check.textMidChecks ++ Chf.Check.textEngineChecks ++ Chf.Check.textSeenChecks ++ Chf.Check.textWorkChecks ++
    Chf.Check.textLeftChecks ++ Chf.Check.textCollideChecks ++ Chf.Check.textPermuteChecks ++
    Chf.Check.textLimitChecks ++ Chf.Check.textHashChecks ++ Chf.Check.textDecidesChecks ++
    Chf.Check.textCopyChecks ++ Chf.Check.textSiphashChecks ++ Chf.Check.textResumeChecks ++
    Chf.Check.textStoredChecks ++ Chf.Check.textTagsChecks ++ Chf.Check.textConstantsChecks ++ Chf.Check.textSortedChecks ++
    Chf.Check.textVerifyChecks ++ Chf.Check.textKeptChecks ++
    Chf.Check.textMultiChecks ++ Chf.Check.textErrorsChecks ++ Chf.Check.textMovesChecks ++
    Chf.Check.otherSerdeChecks ++ Chf.Check.textSizeChecks ++ Chf.Check.textSchemaChecks ++
    Chf.Check.textUnkeyedChecks ++ Chf.Check.textCutsChecks
  let ids := args.filter (·.startsWith "C")
  let wanted := ((if "text" ∈ args then [] else model) ++ text).filter fun x =>
    ids.isEmpty || ids.any fun i => x.1.startsWith (i ++ "_")
  for (name, check) in wanted do
    let value := check ()
    IO.println s!"{name} {value}"
    (← IO.getStdout).flush
    if !value && "first" ∈ args then
      return
