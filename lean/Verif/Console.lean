import Verif.Program
import Verif.Format

/-!
# The interactive simulator

Model of `cmdis/__main__.py`: the console, its commands, the start of the simulator.

Output is a list of lines. The texts of error messages that contain the text of an
exception are not modelled, only that there is one, and tracebacks are left out.
Not modelled: the command line of the program, the log level, `KeyboardInterrupt`, the
prompt. `$` commands run Python code; what they do is a parameter.

The decoder tree is the one after `build()`: what was decoded before does not matter (C37).
-/

namespace Verif

/-! ### Python's text functions -/

/-- The parts of a text between the characters that satisfy the predicate. -/
def splitBy (p : Char → Bool) : Str → List Str
  | [] => [[]]
  | c :: t =>
    if p c then [] :: splitBy p t
    else match splitBy p t with
      | [] => [[c]]
      | h :: r => (c :: h) :: r

/-- `s.split()`. -/
def words (s : Str) : List Str := (splitBy isSpace s).filter (· ≠ [])

/-- `s.strip()`. -/
def strip (s : Str) : Str := ((s.dropWhile isSpace).reverse.dropWhile isSpace).reverse

/-- `"%0nx" % v`: the sign counts. -/
def hexPad (n : Nat) (v : Int) : Str :=
  let d := BS.natText 16 v.natAbs
  let sign := if v < 0 then c! "-" else []
  sign ++ List.replicate (n - sign.length - d.length) '0' ++ d

/-- `"{:#010x}".format(v)`. -/
def altHex (v : Int) : Str :=
  let d := BS.natText 16 v.natAbs
  let sign := if v < 0 then c! "-" else []
  sign ++ c! "0x" ++ List.replicate (8 - sign.length - d.length) '0' ++ d

/-- `"{:>n}".format(s)`. -/
def padLeft (n : Nat) (s : Str) : Str := List.replicate (n - s.length) ' ' ++ s

/-- The value of a digit; capital letters do not occur, the text is in lower case. -/
def digitValue (c : Char) : Option Nat :=
  if '0' ≤ c && c ≤ '9' then some (c.toNat - '0'.toNat)
  else if 'a' ≤ c && c ≤ 'z' then some (c.toNat - 'a'.toNat + 10)
  else none

/-- Digits of a base, the value so far in the second argument. -/
def digitsValue (base : Nat) : Str → Nat → Option Nat
  | [], acc => some acc
  | c :: t, acc => match digitValue c with
    | some d => if d < base then digitsValue base t (base * acc + d) else none
    | none => none

/-- At least one digit. -/
def number (base : Nat) (s : Str) : Option Nat := if s = [] then none else digitsValue base s 0

/-- An integer without sign as Python 2's `int(s, base=0)` reads it. A leading `0` means
octal; after it there may be no digit. -/
def unsignedNumber : Str → Option Nat
  | '0' :: 'x' :: t => number 16 t
  | '0' :: 'o' :: t => number 8 t
  | '0' :: 'b' :: t => number 2 t
  | '0' :: t => digitsValue 8 t 0
  | t => number 10 t

/-- The same with an `l` at the end, which Python 2 accepts if the text starts with `0` and
the number does not fit a C `long`: the text is then read as a `long` literal. -/
def longNumber (s : Str) : Option Nat :=
  if s.head? = some '0' ∧ s.getLast? = some 'l' then
    match unsignedNumber s.dropLast with
    | some v => if 2 ^ 63 ≤ v then some v else none
    | none => none
  else none

/-- A number with or without sign. -/
def signedNumber : Str → Option Int
  | '-' :: t => (unsignedNumber t).map fun (v : Nat) => -(v : Int)
  | '+' :: t => (unsignedNumber t).map fun (v : Nat) => (v : Int)
  | t => ((unsignedNumber t).or (longNumber t)).map fun (v : Nat) => (v : Int)

/-- `int(s, base=0)` of Python 2 on a 64-bit Linux, for a text in lower case without blanks. -/
def intBase0 (s : Str) : PyRes Int :=
  match signedNumber s with
  | some v => .ok v
  | none => .error .valueError

/-! ### The console's monad -/

/-- What can leave a command: the exceptions of the library, the two of `__main__.py` (164-168),
and `SystemExit`, which `optparse` raises after a bad option and which is not an `Exception`. -/
inductive Exn where
  | py (e : PyErr)
  | toolError
  | toolExit
  | systemExit
deriving DecidableEq, Repr

/-- What appears on the screen. -/
inductive Output where
  | line (s : Str)
  /-- A message about an exception. -/
  | report (e : Exn)
deriving DecidableEq, Repr

/-- The simulated machine and the output so far. -/
structure World where
  cpu : Machine
  out : List Output

/-- Code of the console. -/
def ConM (α : Type) : Type := World → Except Exn α × World

namespace ConM

/-- Sequencing; an exception ends the computation and keeps the state. -/
def bind {α β : Type} (x : ConM α) (f : α → ConM β) : ConM β := fun s =>
  match x s with
  | (.ok a, s') => f a s'
  | (.error e, s') => (.error e, s')

instance : Monad ConM where
  pure a := fun s => (.ok a, s)
  bind := bind

end ConM

namespace Console

/-- `raise e`. -/
def raise {α : Type} (e : Exn) : ConM α := fun w => (.error e, w)

/-- `print s`. -/
def print (s : Str) : ConM Unit := fun w => (.ok (), { w with out := w.out ++ [.line s] })

/-- The messages of the `except` clauses. -/
def report (e : Exn) : ConM Unit := fun w => (.ok (), { w with out := w.out ++ [.report e] })

/-- Lines one after the other. -/
def printAll (l : List Str) : ConM Unit := fun w => (.ok (), { w with out := w.out ++ l.map .line })

/-- Using the machine. -/
def cpu {α : Type} (x : CpuM α) : ConM α := fun w =>
  match x w.cpu with
  | (.ok a, s) => (.ok a, { w with cpu := s })
  | (.error e, s) => (.error (.py e), { w with cpu := s })

/-- An expression that may raise. -/
def expr {α : Type} (x : PyRes α) : ConM α := fun w =>
  match x with
  | .ok a => (.ok a, w)
  | .error e => (.error (.py e), w)

/-- `name in CORE_REGISTER`. -/
def isRegister (name : Str) : Bool := coreRegister.any (·.1 = name)

/-- `read_memory_block(addr, length)` with a negative length, `mock_cpu.py` 93-96: the end of
the slice `data[offset:offset+length]` may then count from the end of the data. -/
def readBlockBack (addr length : Int) : CpuM (Option (List Nat)) := fun s =>
  match findMem s.mem addr with
  | none => (.ok none, s)
  | some (m, off) =>
    let stop := (off : Int) + length
    let stop := if stop < 0 then stop + m.data.length else stop
    (.ok (some ((m.data.take stop.toNat).drop off)), s)

/-- `read_memory_block(addr, length)` with a length of either sign. -/
def readBlock (addr length : Int) : CpuM (Option (List Nat)) :=
  if 0 ≤ length then readMemoryBlock addr length.toNat else readBlockBack addr length

/-! ### `convert_value`, `__main__.py` 559-580 -/

/-- `arg.lower().replace('_', '')`, 560. -/
def cleanArg (arg : Str) : Str := (lower arg).filter (· ≠ '_')

/-- The register or number, 570-574. -/
def plainValue (arg : Str) : ConM Int :=
  if isRegister arg then do
    let v ← cpu (readRegister (.name arg))
    print (arg ++ c! " = 0x" ++ hexPad 8 v.unsigned)
    pure v.unsigned
  else expr (intBase0 arg)

/-- What is inside the brackets, 563-568: a text and an offset. -/
def derefParts (arg : Str) : PyRes (Str × Int) :=
  if arg.contains ',' then
    match splitBy (· = ',') arg with
    | [a, o] => do
      let off ← intBase0 (strip o)
      .ok (strip a, off)
    | _ => .error .valueError
  else .ok (arg, 0)

/-- `bytes_to_le32(block)`; a block that is `None` cannot be indexed. -/
def wordOf : Option (List Nat) → PyRes Nat
  | none => .error .typeError
  | some d => bytesToLe32 d

/-- `convert_value(arg)`, `__main__.py` 559-580. -/
def convertValue (arg : Str) : ConM Int :=
  match cleanArg arg with
  | [] => raise (.py .indexError)
  | '[' :: t => do
    let (a, off) ← expr (derefParts t.dropLast)
    let v ← plainValue a
    let block ← cpu (readBlock (v + off) 4)
    let x ← expr (wordOf block)
    print (c! "[" ++ a ++ c! "," ++ intText 10 off ++ c! "] = 0x" ++ hexPad 8 x)
    pure (x : Int)
  | a => plainValue a

/-! ### The commands -/

/-- The methods in `command_list`, `__main__.py` 271-305. -/
inductive Command where
  | info | reg | wreg | reset | read (width : Nat) | write (width : Nat) | step | disasm | map | log | exit
deriving DecidableEq, Repr

/-- `command_list`, `__main__.py` 271-305. -/
def commandList : List (Str × Command) := [
  (c! "info", .info), (c! "i", .info),
  (c! "reg", .reg), (c! "wreg", .wreg), (c! "reset", .reset),
  (c! "read", .read 8), (c! "read8", .read 8), (c! "read16", .read 16), (c! "read32", .read 32),
  (c! "r", .read 8), (c! "rb", .read 8), (c! "r16", .read 16), (c! "rh", .read 16),
  (c! "r32", .read 32), (c! "rw", .read 32),
  (c! "write", .write 8), (c! "write8", .write 8), (c! "write16", .write 16), (c! "write32", .write 32),
  (c! "w", .write 8), (c! "wb", .write 8), (c! "w16", .write 16), (c! "wh", .write 16),
  (c! "w32", .write 32), (c! "ww", .write 32),
  (c! "step", .step), (c! "s", .step),
  (c! "disasm", .disasm), (c! "d", .disasm),
  (c! "map", .map), (c! "log", .log),
  (c! "exit", .exit), (c! "quit", .exit)]

/-- The columns of `dump_registers`, `__main__.py` 584-589. -/
def registerRows : List (List Str) := [
  [c! "r0", c! "r6", c! "r12", c! "xpsr"],
  [c! "r1", c! "r7", c! "sp", c! "control"],
  [c! "r2", c! "r8", c! "lr", c! "primask"],
  [c! "r3", c! "r9", c! "pc", c! "faultmask"],
  [c! "r4", c! "r10", c! "msp", c! "basepri"],
  [c! "r5", c! "r11", c! "psp"]]

/-- One row, `__main__.py` 592-599; the argument is the column. A `print` that ends with a
comma puts a blank before the next one. -/
def registerCells : Nat → List Str → ConM (List Str)
  | _, [] => pure []
  | col, reg :: t => do
    let v ← cpu (readRegister (.name reg))
    let cell := padLeft (if col = 3 then 10 else 4) (reg ++ c! ":") ++ c! " " ++ altHex v.unsigned ++ c! " "
    let cells ← registerCells (col + 1) t
    pure (cell :: cells)

/-- `dump_registers()`, `__main__.py` 582-599. -/
def dumpRegisters : List (List Str) → ConM Unit
  | [] => pure ()
  | row :: t => do
    let cells ← registerCells 0 row
    print (joinWith (c! " ") cells)
    dumpRegisters t

/-- `handle_reg(args)`, `__main__.py` 391-402. -/
def handleReg : List Str → ConM Unit
  | [] => dumpRegisters registerRows
  | a :: _ =>
    let reg := lower a
    if isRegister reg then do
      let v ← cpu (readRegister (.name reg))
      print (reg ++ c! " = 0x" ++ hexPad 8 v.value ++ c! " (" ++ intText 10 v.value ++ c! ")")
    else raise .toolError

/-- `handle_write_reg(args)`, `__main__.py` 404-412. -/
def handleWriteReg : List Str → ConM Unit
  | a :: b :: _ => do
    let v ← convertValue b
    cpu (writeRegister (.name (lower a)) (.int v))
  | _ => raise .toolError

/-- `handle_reset(self, args, other)`, `__main__.py` 414-415, is called with one argument. -/
def handleReset : ConM Unit := raise (.py .typeError)

/-- `parser.parse_args(args)` for the parser with the one option `-c`, `--center`
(`__main__.py` 170-179 and 417): whether it is given, and the other arguments. `none` is an
error, which prints to the standard error output and raises `SystemExit`. -/
def parseOptions : List Str → Option (Bool × List Str)
  | [] => some (false, [])
  | a :: t =>
    if a = c! "--" then some (false, t)
    else if (c! "--").isPrefixOf a then
      if a.isPrefixOf (c! "--center") then (parseOptions t).map fun r => (true, r.2) else none
    else if (c! "-").isPrefixOf a ∧ 1 < a.length then
      if (a.drop 1).all (· = 'c') then (parseOptions t).map fun r => (true, r.2) else none
    else (parseOptions t).map fun r => (r.1, a :: r.2)

/-- The lines of a listing, `__main__.py` 616-618. -/
def listing (pc : Int) : List Instr → PyRes (List Str)
  | [] => .ok []
  | i :: t => do
    let (s, _) ← i.format
    let ls ← listing pc t
    .ok ((altHex i.address ++ c! ":" ++ (if pc = i.address then c! "*" else c! " ") ++ c! " " ++ s) :: ls)

/-- `cpu.read_register('pc').unsigned & ~1`, `__main__.py` 499 and 608. -/
def evenPc : ConM Int := do
  let p ← cpu (readRegister (.name (c! "pc")))
  pure (pyAnd p.unsigned (pyNot 1))

/-- What `print_disasm` does when the loop ended, `__main__.py` 624-628: the listing `ls`, and
the exception `e` that ended it, if there was one. If no instruction was listed, `text[-1]`
raises `IndexError`. -/
def showListing (ls : List Str) : Option PyErr → ConM Unit
  | none => if ls = [] then raise (.py .indexError) else printAll ls
  | some e =>
    if e = .undefinedInstruction then do
      print (c! "Undefined instruction")
      if ls = [] then raise (.py .indexError) else printAll ls
    else raise (.py e)

/-- `print_disasm(code, startAddr)`, `__main__.py` 607-628. -/
def printDisasm (code : Option (List Nat)) (start : Int) : ConM Unit := do
  let pc ← evenPc
  match code with
  | none => raise (.py .typeError)
  | some d => do
    let ls ← expr (listing pc (disasm trees d start).1)
    showListing ls (disasm trees d start).2

/-- The optional `LEN` argument, `__main__.py` 428-431 and 459-462. -/
def count (default : Int) : Option Str → ConM Int
  | none => pure default
  | some a => convertValue a

/-- `handle_disasm(args)`, `__main__.py` 417-435. -/
def handleDisasm (args : List Str) : ConM Unit :=
  match parseOptions args with
  | none => raise .systemExit
  | some (center, other) => do
    let addr ← convertValue (other.headD (c! "pc"))
    let n ← count 6 (other.drop 1).head?
    let addr := pyAnd (if center then addr - n / 2 else addr) (pyNot 1)
    let data ← cpu (readBlock addr n)
    printDisasm data addr

/-- How many items `dumpHexData` puts on a line. -/
def perLine (width : Nat) : Nat := if width = 8 then 16 else if width = 16 then 8 else 4

/-- `dumpHexData(data, startAddress, width)`, `__main__.py` 140-162: the lines. The other
arguments are the number of items so far and the line begun, if there is one. The address
of a line is `startAddress` plus the number of *items* before it. -/
def dumpLines (start : Int) (width : Nat) : List Nat → Nat → Option Str → List Str
  | [], _, none => []
  | [], _, some l => [l]
  | d :: t, i, cur =>
    let l := cur.getD (hexPad 8 (start + i) ++ c! ": ")
    let l := l ++ c! " " ++ hexPad (width / 4) d ++ (if width = 8 ∧ (i + 1) % 4 = 0 then c! " " else [])
    if (i + 1) % perLine width = 0 then l :: dumpLines start width t (i + 1) none
    else dumpLines start width t (i + 1) (some l)

/-- The data shown, `__main__.py` 465-473; `None` has no length. -/
def items (width : Nat) : Option (List Nat) → PyRes (List Nat)
  | none => .error .typeError
  | some d => if width = 8 then .ok d else if width = 16 then byteListToU16leList d else .ok (byteListToU32leList d)

/-- `do_read(args, width)`, `__main__.py` 455-476. -/
def doRead (width : Nat) : List Str → ConM Unit
  | [] => print (c! "Error: no address specified")
  | a :: t => do
    let addr ← convertValue a
    let n ← count ((width / 8 : Nat) : Int) t.head?
    let block ← cpu (readBlock addr n)
    let data ← expr (items width block)
    printAll (dumpLines addr width data 0 none)

/-- `bytearray(self.convert_value(d) for d in args[1:])`, `__main__.py` 487. -/
def byteValues : List Str → ConM (List Nat)
  | [] => pure []
  | a :: t => do
    let v ← convertValue a
    if 0 ≤ v ∧ v < 256 then do
      let vs ← byteValues t
      pure (v.toNat :: vs)
    else raise (.py .valueError)

/-- The bytes written, `__main__.py` 489-494. -/
def dataBytes (width : Nat) (data : List Nat) : List Nat :=
  if width = 8 then data
  else if width = 16 then u16leListToByteList (data.map Int.ofNat)
  else u32leListToByteList (data.map Int.ofNat)

/-- `do_write(args, width)`, `__main__.py` 478-496. -/
def doWrite (width : Nat) : List Str → ConM Unit
  | [] => print (c! "Error: no address specified")
  | a :: t => do
    let addr ← convertValue a
    if t = [] then print (c! "Error: no data for write")
    else do
      let data ← byteValues t
      cpu (writeMemoryBlock addr (dataBytes width data))

/-- The body of the `try` in `handle_step`, `__main__.py` 504-517. -/
def stepBody (pc : Int) : ConM Unit := do
  let code ← cpu (readMemoryBlock pc 4)
  match code with
  | none => raise (.py .typeError)
  | some d =>
    match disasm trees d pc with
    | (_, some e) => raise (.py e)
    | ([], none) => print (c! "No instructions found!")
    | (i :: _, none) => do
      let (s, i) ← expr i.format
      print (altHex i.address ++ c! ":  " ++ s)
      let _ ← cpu i.eval
      pure ()

/-- The `try` in `handle_step`, `__main__.py` 503-520. -/
def stepTry (pc : Int) : ConM Unit := fun w =>
  match stepBody pc w with
  | (.error (.py .undefinedInstruction), w') => print (c! "Undefined instruction") w'
  | r => r

/-- `handle_step(args)`, `__main__.py` 498-520. -/
def handleStep : ConM Unit := do
  let pc ← evenPc
  stepTry pc

/-- The keys of `LEVELS`, `__main__.py` 38-44. -/
def levels : List Str := [c! "debug", c! "info", c! "warning", c! "error", c! "critical"]

/-- `handle_log(args)`, `__main__.py` 525-532. Simplification: the names of the levels in the
message are left out. -/
def handleLog : List Str → ConM Unit
  | [] => print (c! "Error: no log level provided")
  | a :: _ => if levels.contains (lower a) then pure () else print (c! "Error: log level must be one of {}")

/-- Calling the method. -/
def handle : Command → List Str → ConM Unit
  | .info, _ => print []
  | .reg, args => handleReg args
  | .wreg, args => handleWriteReg args
  | .reset, _ => handleReset
  | .read w, args => doRead w args
  | .write w, args => doWrite w args
  | .step, _ => handleStep
  | .disasm, args => handleDisasm args
  | .map, _ => pure ()
  | .log, args => handleLog args
  | .exit, _ => raise .toolExit

/-! ### Help -/

/-- `COMMAND_INFO`, `__main__.py` 47-128, sorted: names with aliases, arguments, help. -/
def commandInfo : List (Str × List Str × Str × Str) := [
  (c! "disasm", [c! "d"], c! "[-c/--center] ADDR [LEN]", c! "Disassemble instructions at an address"),
  (c! "exit", [c! "quit"], [], c! "Quit the simulator"),
  (c! "help", [c! "?"], c! "[CMD]", c! "Show help for commands"),
  (c! "info", [c! "i"], [], c! "Display target type and IDs"),
  (c! "log", [], c! "LEVEL", c! "Set log level to one of debug, info, warning, error, critical"),
  (c! "read16", [c! "r16", c! "rh"], c! "ADDR [LEN]", c! "Read 16-bit halfwords"),
  (c! "read32", [c! "r32", c! "rw"], c! "ADDR [LEN]", c! "Read 32-bit words"),
  (c! "read8", [c! "read", c! "r", c! "rb"], c! "ADDR [LEN]", c! "Read 8-bit bytes"),
  (c! "reg", [], c! "[REG]", c! "Print all or one register"),
  (c! "reset", [], c! "[-h/--halt]", c! "Reset the target"),
  (c! "status", [c! "stat"], [], c! "Show the target's current state"),
  (c! "step", [c! "s"], [], c! "Step one instruction"),
  (c! "wreg", [], c! "REG VALUE", c! "Set the value of a register"),
  (c! "write16", [c! "w16", c! "wh"], c! "ADDR DATA...", c! "Write 16-bit halfwords"),
  (c! "write32", [c! "w32", c! "ww"], c! "ADDR DATA...", c! "Write 32-bit words"),
  (c! "write8", [c! "write", c! "w", c! "wb"], c! "ADDR DATA...", c! "Write 8-bit bytes")]

/-- `a <= b` for texts. -/
def strLe : Str → Str → Bool
  | [], _ => true
  | _ :: _, [] => false
  | a :: s, b :: t => if a = b then strLe s t else a < b

/-- Insertion into a sorted list. -/
def insertStr (s : Str) : List Str → List Str
  | [] => [s]
  | t :: r => if strLe s t then s :: t :: r else t :: insertStr s r

/-- `sorted(l)`. -/
def sortStrs : List Str → List Str
  | [] => []
  | s :: t => insertStr s (sortStrs t)

/-- A line of the list of commands, `__main__.py` 260-262. -/
def infoLine (x : Str × List Str × Str × Str) : Str :=
  padRight 25 (joinWith (c! ", ") (sortStrs (x.1 :: x.2.1))) ++ c! " " ++ padRight 20 x.2.2.1 ++ c! " " ++ x.2.2.2

/-- `list_commands()`, `__main__.py` 255-265. -/
def listCommands : ConM Unit := printAll (
  [c! "Commands:", c! "---------"] ++ commandInfo.map infoLine ++
  [[], c! "All register names are also available as commands that print the register's value.",
   c! "Any ADDR or LEN argument will accept a register name."])

/-- `show_help(args)`, `__main__.py` 251-253. -/
def showHelp (args : List Str) : ConM Unit := if args = [] then listCommands else pure ()

/-! ### The console -/

/-- What evaluating a Python expression does. -/
abbrev Python := Str → ConM Unit

/-- `handle_python(args)`, `__main__.py` 537-550. -/
def handlePython (python : Python) (args : Str) : ConM Unit := fun w =>
  match python args w with
  | (.error .systemExit, w') => (.error .systemExit, w')
  | (.error e, w') => report e w'
  | r => r

/-- The body of the `try` in `process_command`, `__main__.py` 213-239. -/
def dispatch (python : Python) (cmd : Str) : ConM Unit :=
  match strip cmd with
  | [] => raise (.py .indexError)
  | '$' :: _ => handlePython python (strip (cmd.drop 1))
  | _ => match words cmd with
    | [] => raise (.py .indexError)
    | a :: args =>
      let name := lower a
      if name = c! "?" ∨ name = c! "help" then showHelp args
      else if isRegister name then handleReg [name]
      else match commandList.lookup name with
        | none => print (c! "Error: unrecognized command '" ++ name ++ c! "'")
        | some h => handle h args

/-- The `except` clauses of `process_command`, `__main__.py` 240-249. -/
def catching (x : ConM Unit) : ConM Unit := fun w =>
  match x w with
  | (.error .toolExit, w') => (.error .toolExit, w')
  | (.error .systemExit, w') => (.error .systemExit, w')
  | (.error e, w') => report e w'
  | r => r

/-- `process_command(cmd)`, `__main__.py` 211-249. -/
def processCommand (python : Python) (cmd : Str) : ConM Unit := catching (dispatch python cmd)

/-- The loop of `process_command_line`, `__main__.py` 208-209. -/
def processCommands (python : Python) : List Str → ConM Unit
  | [] => pure ()
  | c :: t => do
    processCommand python c
    processCommands python t

/-- `process_command_line(line)`, `__main__.py` 207-209. -/
def processCommandLine (python : Python) (line : Str) : ConM Unit := processCommands python (splitBy (· = ';') line)

/-- `SimConsole.run()`, `__main__.py` 188-205, on the lines typed before the end of the
input; the second argument is `last_command`. -/
def session (python : Python) : List Str → Str → ConM Unit
  | [], _ => print []
  | l :: t, last =>
    let line := strip l
    if line ≠ [] then do
      processCommandLine python line
      session python t line
    else if last ≠ [] then do
      processCommand python last
      session python t last
    else session python t last

/-! ### The start of the simulator -/

/-- `create_sim()`, `__main__.py` 320-334. -/
def createSim (binary : List Nat) : CpuM Unit := do
  addMemory 0 (max 0x10000 (binary.length : Int))
  writeMemoryBlock 0 binary
  let sp ← readMemory (.int 0)
  addMemory 0x1fff8000 (if sp.unsigned ≠ 0 then max ((sp.unsigned : Int) - 0x1fff8000) 0x10000 else 0x10000)

/-- `_find_mem(addr)` tells whether an address is mapped. -/
def mapped (addr : Int) : CpuM Bool := fun s => (.ok (findMem s.mem addr).isSome, s)

/-- An assignment that depends on a condition. -/
def setIf (b : Bool) (x : CpuM Unit) : CpuM Unit := if b then x else pure ()

/-- `reset_sim()`, `__main__.py` 336-347. -/
def resetSim : ConM Unit := do
  let pc ← cpu (readMemory (.int 4))
  let m ← cpu (mapped pc.unsigned)
  cpu (setIf m (setPc (.bs pc)))
  let sp ← cpu (readMemory (.int 0))
  let m ← cpu (mapped ((sp.unsigned : Int) - 4))
  cpu (setIf m (setSp (.bs sp)))
  printAll [c! "CPU model reset.", c! "PC = 0x" ++ hexPad 8 pc.value, c! "SP = 0x" ++ hexPad 8 sp.value]

/-- The body of the `try` in `SimTool.run`, `__main__.py` 367-372. -/
def toolBody (python : Python) (binary : List Nat) (lines : List Str) : ConM Unit := do
  cpu (createSim binary)
  resetSim
  session python lines []

/-- `SimTool.run()`, `__main__.py` 349-386, with the contents of the binary file and the
lines typed: the exit code or the exception, and what is printed. -/
def run (python : Python) (binary : List Nat) (lines : List Str) : Except Exn Nat × World :=
  match toolBody python binary lines ⟨Machine.new, []⟩ with
  | (.ok (), w) => (.ok 0, w)
  | (.error .toolExit, w) => (.ok 0, w)
  | (.error (.py .valueError), w) => (.ok 0, { w with out := w.out ++ [.report (.py .valueError)] })
  | (.error .toolError, w) => (.ok 1, { w with out := w.out ++ [.report .toolError] })
  | (.error e, w) => (.error e, w)

end Console
end Verif
