import Verif
open NumberParser
def S (s : String) : PyStr := s.toList.map Char.toNat
def showS (s : PyStr) : String := String.ofList (s.map Char.ofNat)
def L (s : String) : Option PyStr := if s == "" then none else some (S s)
def sh {α} (f : α → String) : Res (Option α) → String | .ok (some a) => f a | .ok none => "None" | .error _ => "ERR"
def sh' : Res PyStr → String | .ok a => showS a | .error _ => "ERR"
def main : IO Unit := do
  let ls := (← IO.FS.lines "/tmp/np_cases.txt")
  let mut bad := 0
  for l in ls do
    match l.splitOn "\t" with
    | [fn,s,lang,e] =>
      let r := match fn with
        | "P" => sh' (parse (S s) (L lang))
        | "N" => sh toString (parseNumber (S s) (L lang))
        | "O" => sh toString (parseOrdinal (S s) (L lang))
        | "F" => sh showS (parseFraction (S s) (L lang))
        | _ => sh' (validTokensByLanguage (S s))
      if r != e then
        bad := bad+1
        IO.println s!"MISMATCH {fn} {s} {lang} {e} got {r}"
    | _ => IO.println s!"?? {l}"
  IO.println s!"{ls.size} cases, {bad} mismatches"
#eval main
