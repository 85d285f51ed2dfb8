import Verif
open Verif
def enc (s : PyStr) : String := ".".intercalate (s.map fun c => toString c.toNat)
def dec (s : String) : PyStr := if s.isEmpty then [] else (s.splitOn ".").map fun x => Char.ofNat x.toNat!
def decB (s : String) : Bytes := if s.isEmpty then [] else (s.splitOn ".").map fun x => UInt8.ofNat x.toNat!
def excS : Exc → String := fun e => match e with | .valueError => "V" | .typeError => "T" | .keyError => "K" | .other => "O" | _ => "?"
partial def js : Json → String
  | .null => "n" | .bool b => if b then "t" else "f" | .num i => s!"i{i}"
  | .float .nan => "Fnan" | .float (.inf b) => if b then "F-inf" else "Finf"
  | .float (.finite neg m e) => if m = 0 then (if neg then "F-0" else "F0") else
      let rec norm (m : Nat) (e : Int) : Nat × Int := if m % 2 = 0 then norm (m/2) (e+1) else (m,e)
      let (m,e) := norm m e
      s!"F{if neg then "-" else ""}{m}e{e}"
  | .str s => "s" ++ enc s
  | .arr l => "[" ++ ",".intercalate (l.map js) ++ "]"
  | .obj d => "{" ++ ",".intercalate (d.map fun p => enc p.1 ++ ":" ++ js p.2) ++ "}"
partial def xs : Xml → String
  | x => "<" ++ enc x.tag ++ "|" ++ ",".intercalate (x.attrib.map fun a => enc a.1 ++ "=" ++ enc a.2) ++ "|" ++ (match x.text with | none => "N" | some t => enc t) ++ "|" ++ "".intercalate (x.children.map xs) ++ ">"
def ms (ng : Nat) : Option MSt → String
  | none => "none"
  | some m => toString m.pos ++ ";" ++ ";".intercalate ((List.range ng).map fun i => match Re.group m (i+1) with | none => "N" | some g => enc g)
def regs : List (Nat × Re) := [(0,sgKeyRe),(0,segmentCode3Re),(0,openingQualifierRe),(0,dataElement4Re),(0,valuePoolEntryRe),(0,numericEntryRe),(1,ebdCodeRe),(2,bedingungRe),(0,pruefiRe),(0,pruefidentifikatorRe),(2,simpleQualifierRe),(3,gabiQualifierRe),(0,segmentId5Re),(2,EdifactStack.levelRe),(2,singleQualifierRe),(2,multiQualifierRe),(0,flatDataElementRe),(0,flatSgRe),(0,flatSegmentCodeRe)]
def handle (op arg : String) : String :=
  if op.startsWith "re" then
    let i := (op.drop 2).toString.toNat!
    match regs[i]? with | some (n,r) => ms n (r.pyMatch (dec arg)) | none => "??"
  else if op.startsWith "fi" then
    let i := (op.drop 2).toString.toNat!
    match regs[i]? with | some (n,r) => "/".intercalate ((r.findIter (dec arg)).map fun m => ms n (some m)) | none => "??"
  else match op with
  | "csv" => match decodeUtf8 (decB arg) with
    | .error e => "E" ++ excS e
    | .ok t => let (r,e) := csvRecords ',' {} (fileLines t); "/".intercalate (r.map fun x => ",".intercalate (x.map enc)) ++ "#" ++ (match e with | none => "" | some e => excS e)
  | "csv;" => match decodeUtf8 (decB arg) with
    | .error e => "E" ++ excS e
    | .ok t => let (r,e) := csvRecords ';' {} (fileLines t); "/".intercalate (r.map fun x => ",".intercalate (x.map enc)) ++ "#" ++ (match e with | none => "" | some e => excS e)
  | "json" => match jsonLoads (dec arg) with | .error e => "E" ++ excS e | .ok j => js j
  | "dumps" => match jsonLoads (dec arg) with | .error e => "E" ++ excS e | .ok j => "/".intercalate ([(none,true,false),(some 2,false,true),(some 0,true,true),(some 4, false,false)].map fun (i,a,s) => enc (jsonDumps {indent:=i,ensureAscii:=a,sortKeys:=s} j))
  | "uuid" => match parseUuid (dec arg) with | none => "E" | some n => toString n
  | "int" => match pyInt (dec arg) with | none => "E" | some n => toString n
  | "strip" => enc (strip (dec arg))
  | "printed" => match arg.splitOn "/" with
    | [a, b] => enc (reprStr (fun c => (dec b).contains c) (dec a))
    | _ => "??"
  | "lower" => enc (lower (dec arg))
  | "xml" => match parseXml (dec arg) with | none => "E" | some x => xs x
  | "upper" => if (dec arg).all isUpperFixed then "1" else "0"
  | _ => "??"
partial def loop (h : IO.FS.Stream) (o : IO.FS.Stream) : IO Unit := do
  let l ← h.getLine
  if l.isEmpty then return
  let l := (l.dropEndWhile (· == '\n')).toString
  match l.splitOn "\t" with
  | [op, a] => o.putStrLn (handle op a)
  | _ => o.putStrLn "bad"
  loop h o
def main : IO Unit := do loop (← IO.getStdin) (← IO.getStdout)
