import Verif.Console

/-!
# Ctrl-C at the prompt

The loop of the console again, with interrupts. Simplification: an interrupt comes while a line is read, not while a
command runs.
-/

namespace Verif
namespace Console

/-- What `raw_input` gives: a line, or `KeyboardInterrupt`. -/
inductive Input where
  | line (s : Str)
  | interrupt
deriving DecidableEq, Repr

/-- `SimConsole.run()`, `__main__.py` 188-205, with the `except KeyboardInterrupt` of 199-200. -/
def interruptible (python : Python) : List Input → Str → ConM Unit
  | [], _ => print []
  | .interrupt :: t, last => do
    print []
    interruptible python t last
  | .line l :: t, last =>
    let line := strip l
    if line ≠ [] then do
      processCommandLine python line
      interruptible python t line
    else if last ≠ [] then do
      processCommand python last
      interruptible python t last
    else interruptible python t last

end Console
end Verif
