import Verif.Model.Num

/-!
# `lib/marc/Notifier.cpp`, `lib/marc/Observer.h`, `src/ProgressConsole.cpp`
-/

namespace MaRC.Progress

/-- A call received by an observer (lib/marc/Observer.h:55-77). -/
inductive Event where
  /-- `notify(map_size, plot_count)` -/
  | notify (size count : ℕ)
  /-- `reset()` -/
  | reset
  deriving DecidableEq, Repr

/-- State of `MaRC::Progress::Notifier` (lib/marc/Notifier.h:96-121).  An
observer is represented by the calls it has received so far. -/
structure Notifier where
  /-- `plot_count_` -/
  count : ℕ
  /-- `observers_` -/
  observers : List (List Event)
  deriving DecidableEq, Repr

namespace Notifier

/-- `Notifier::Notifier()` (lib/marc/Notifier.cpp:18-22). -/
def new : Notifier := ⟨0, []⟩

/-- `Notifier::subscribe` (lib/marc/Notifier.cpp:24-32). -/
def subscribe (n : Notifier) (o : List Event) : Notifier :=
  { n with observers := n.observers ++ [o] }

/-- `Notifier::notify_plotted` (lib/marc/Notifier.cpp:34-53); a failing
`assert` is undefined behaviour here. -/
def notifyPlotted (n : Notifier) (mapSize : ℕ) : Outcome Notifier :=
  if mapSize = 0 then .ub
  else if ¬ n.count < mapSize then .ub
  else .ok ⟨n.count + 1, n.observers.map (· ++ [.notify mapSize (n.count + 1)])⟩

/-- `Notifier::notify_done` (lib/marc/Notifier.cpp:54-71). -/
def notifyDone (n : Notifier) (mapSize : ℕ) : Outcome Notifier :=
  if mapSize = 0 then .ub
  else .ok ⟨0, n.observers.map (· ++ [.notify mapSize mapSize, .reset])⟩

end Notifier

/-- State of `MaRC::Progress::Console` (src/ProgressConsole.cpp:19-23) together
with the text it has written. -/
structure Console where
  /-- `percent_complete_old_` -/
  old : ℕ
  /-- Everything written to `std::cout`. -/
  out : String
  deriving DecidableEq, Repr

namespace Console

/-- Percentage computed by `Console::notify`
(src/ProgressConsole.cpp:29-33): `size_t(double(plot_count) / map_size * 100)`
with every conversion and operation rounded by `F`. -/
def percent (F : Fp) (mapSize plotCount : ℕ) : Outcome ℤ :=
  castInt 0 (2 ^ 64 - 1)
    (F.mul (F.div (F.rnd plotCount) (F.rnd mapSize)) (.fin 100))

/-- What is printed for the mark `p` (src/ProgressConsole.cpp:46-53). -/
def mark (p : ℕ) : String :=
  if p = 100 then "100%\n"
  else if p % 20 = 0 then toString p
  else if p % 2 = 0 then "."
  else ""

/-- The printing loop (src/ProgressConsole.cpp:43-54). -/
def printFrom (p percent : ℕ) : String :=
  if p ≤ percent then mark p ++ printFrom (p + 2) percent else ""
  termination_by percent + 1 - p

/-- `Console::notify` (src/ProgressConsole.cpp:25-58). -/
def notify (F : Fp) (c : Console) (mapSize plotCount : ℕ) : Outcome Console := do
  let pc ← percent F mapSize plotCount
  let pc := pc.toNat
  if ¬ pc ≤ 100 then .ub
  else if pc > c.old then
    let p := c.old + 1
    let p := p + p % 2
    .ok ⟨pc, c.out ++ printFrom p pc⟩
  else .ok c

/-- `Console::reset` (src/ProgressConsole.cpp:60-64). -/
def reset (c : Console) : Console := { c with old := 0 }

/-- The console as an observer: react to one call. -/
def step (F : Fp) (c : Console) : Event → Outcome Console
  | .notify s n => notify F c s n
  | .reset => .ok (reset c)

/-- React to a sequence of calls. -/
def run (F : Fp) (c : Console) : List Event → Outcome Console
  | [] => .ok c
  | e :: es => do
    let c ← step F c e
    run F c es

end Console

end MaRC.Progress
