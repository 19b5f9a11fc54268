import Verif.Model.Texts
import Verif.IEEE.F64
/-
What a log file contains: the texts of Model/Texts.lean with the numbers printed by %f filled in, the prefix and the time stamp that
a `log.Logger` adds, and where the loggers of nn.go write.

Simplifications: a time stamp is six natural numbers (no year before 0); a write to the log file or to stdout succeeds (a `log.Logger`
drops the error otherwise).
-/

namespace NN

/-- `log.itoa`: the decimal digits, with zeros in front up to the given width. -/
def padded (wid n : Nat) : Str := List.replicate (wid - (decimalNat n).length) 48 ++ decimalNat n

/-- `%f` of package fmt for a float64 (precision 6, `strconv.AppendFloat(_, v, 'f', 6, 64)`): the exact value is rounded to six decimals, ties
to even; NaN and infinities are printed as words, a sign only if the sign bit is set (+Inf excepted). -/
noncomputable def fmtF (x : F64) : Str :=
  if x.isNaN then str "NaN"
  else if x.isInf then (if x.sign then str "-Inf" else str "+Inf")
  else
    let k := (F64.roundEven (F64.mag x.absBits * 10 ^ 6)).toNat
    (if x.sign then [45] else []) ++ decimalNat (k / 10 ^ 6) ++ [46] ++ padded 6 (k % 10 ^ 6)

/-- The text after the head of an error, exactly: `Err.Tail` with the numbers of optimizers.go:74, 77, 80, 205, 208 printed by %f. -/
def Err.Exact (e : Err) (t : Str) : Prop :=
  e.Tail t ∧ ((e = .sgdRate ∨ e = .sgdDecay ∨ e = .sgdMomentum ∨ e = .adamRate ∨ e = .adamDecay) → ∃ x, t = fmtF x)

/-- The text of a log line: model.go:278, 296 with %f; the error lines; model_data.go:197. -/
def LogEvent.Exact : LogEvent F64 → Str → Prop
  | .info e l a, s => s = str "Epoch: " ++ decimal e ++ str ", Loss: " ++ fmtF l ++ str ", Accuracy: " ++ fmtF a
  | .valInfo e l a, s => s = str "Epoch: " ++ decimal e ++ str ", Validation Loss: " ++ fmtF l ++ str ", Validation Accuracy: " ++ fmtF a
  | .error st er, s => ∃ h t, er.head = some h ∧ er.Exact t ∧ s = st.head ++ (h ++ t)
  | .warnVersion v, s => s = str "Model version " ++ (v ++ (str " may be incompatable with nn version " ++ VERSION ++ str "."))

/-- The prefix of the logger that writes the line: nn.go:37-39 and 49-51. -/
def LogEvent.prefix : LogEvent F64 → Str
  | .info _ _ _ => str "[info]: "
  | .valInfo _ _ _ => str "[info]: "
  | .error _ _ => str "[error]: "
  | .warnVersion _ => str "[warning]: "

/-- The time at which a line is written. -/
structure Stamp where
  (year month day hour minute second : Nat)

/-- `log.Logger.formatHeader` with `log.Ldate|log.Ltime` (nn.go:37-39): "2009/01/23 01:23:23 ". -/
def Stamp.text (t : Stamp) : Str :=
  padded 4 t.year ++ str "/" ++ padded 2 t.month ++ str "/" ++ padded 2 t.day ++ str " " ++
    padded 2 t.hour ++ str ":" ++ padded 2 t.minute ++ str ":" ++ padded 2 t.second ++ str " "

/-- What the loggers write for a sequence of lines: `log.Logger.Printf` writes prefix, time stamp, text and a newline. -/
def LogText : List (Stamp × LogEvent F64) → Str → Prop
  | [], s => s = []
  | (t, l) :: r, s => ∃ x u, l.Exact x ∧ LogText r u ∧ s = l.prefix ++ (t.text ++ (x ++ 10 :: u))

/-- Where the loggers write. -/
inductive LogDest where
  | file (name : Str) | stdout | discard

/-- The files, what was written to stdout, and where the loggers write (none before InitLogger). -/
structure LogOut where
  files : FS
  stdout : Str
  dest : Option LogDest

/-- nn.go:28-55 `InitLogger(verbose, useFile, file)`: a file is opened for appending, and created if there is none. -/
def openLog (verbose useFile : Bool) (file : Str) (openFails : Bool) (o : LogOut) : LogOut :=
  if useFile then
    if openFails then o
    else { o with files := fun n => if n = file then some ((o.files file).getD []) else o.files n, dest := some (.file file) }
  else { o with dest := some (if verbose then .stdout else .discard) }

/-- One write of a logger. -/
def LogOut.write (o : LogOut) (s : Str) : LogOut :=
  match o.dest with
  | some (.file f) => { o with files := fun n => if n = f then some ((o.files f).getD [] ++ s) else o.files n }
  | some .stdout => { o with stdout := o.stdout ++ s }
  | _ => o

end NN
