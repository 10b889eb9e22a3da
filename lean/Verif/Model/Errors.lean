import Verif.Model.Units
import Mathlib.Data.Nat.Digits.Defs
import Mathlib.Data.Rat.Defs

/-!
# Errors and logs

The texts of the errors ThermoFun raises, and where its log goes: `Common/Exception.cpp`, `Common/Exception.h`, and the places that raise an
error without the helpers of that file.

Simplifications for the whole file: a text is a list of characters, each standing for one byte; the allocation of memory and the writing of the
log never fail, except that opening a log file may (the argument `canOpen`); numbers inside the texts of errors that are not names or lines of
the source are left to an unknown function `fmt`.
-/

namespace ThermoFun.Errors

/-- A text: `std::string`, one character per byte (Exception.cpp:75, 87). -/
abbrev Text := List Char

/-- `struct Exception`, Exception.h:21-33.  The member `int line` has no initialiser: `none` is its value until it is set. -/
structure Exn where
  error : Text
  reason : Text
  line : Option Nat
  file : Text
deriving DecidableEq, Repr

/-- What `operator<<` writes for a line number, Exception.cpp:81, 83: its decimal digits.  Lines come from `__LINE__` and are natural numbers. -/
def decText (n : Nat) : Text := if n = 0 then ['0'] else (Nat.digits 10 n).reverse.map fun d => Char.ofNat (48 + d)

/-- `internal::location`, Exception.cpp:75-85. -/
def location (file : Text) (line : Nat) : Text :=
  if file.length > 45 then ['.', '.', '.'] ++ file.drop (file.length - 45) ++ [':'] ++ decText line
  else file ++ [':'] ++ decText line

/-- `unsigned length` at Exception.cpp:92: the sum is made in `size_t` and cut to 32 bits. -/
def barLength (error reason loc : Text) : Nat := (max error.length (max reason.length loc.length) + 16) % 4294967296

/-- The text built at Exception.cpp:89-101. -/
def messageText (error reason loc : Text) : Text :=
  let bar := List.replicate (barLength error reason loc) '*'
  ['\n'] ++ bar ++ ['\n'] ++ "*** Error: ".toList ++ error ++ ['\n'] ++ "*** Reason: ".toList ++ reason ++ ['\n']
    ++ "*** Location: ".toList ++ loc ++ ['\n'] ++ bar ++ ['\n'] ++ ['\n']

/-- The record written to the log at Exception.cpp:102, `" {} - {} {}"`. -/
def logText (line : Nat) (error reason : Text) : Text := [' '] ++ decText line ++ " - ".toList ++ error ++ [' '] ++ reason

/-- What raising an error leaves behind: the text of the `std::runtime_error` and the record in the log. -/
structure Raised where
  what : Text
  log : Text
deriving DecidableEq, Repr

/-- `RaiseError(exception)` on line `here` of the source, Exception.h:50-51 with `internal::message`, Exception.cpp:87-104: `ok` is the error that
is thrown.  Reading a `line` that was never set is undefined behaviour. -/
def raise (e : Exn) (here : Nat) : Res Raised :=
  match e.line with
  | none => .ub
  | some l => .ok ⟨messageText e.error e.reason (location e.file l), logText here e.error e.reason⟩

/-- `funError`, Exception.cpp:215-223. -/
def funError (error reason : Text) (line : Nat) (file : Text) : Res Raised := raise ⟨error, reason, some line, file⟩ 222

/-- `errorMethodNotFound`, Exception.cpp:155-163. -/
def errorMethodNotFound (type name : Text) (line : Nat) (file : Text) : Res Raised :=
  raise ⟨"The calculation method was not found.".toList,
    "The calculation method defined for the ".toList ++ type ++ [' '] ++ name ++ " is not implemented.".toList, some line, file⟩ 162

/-- `errorReactionNotDefined`, Exception.cpp:165-173. -/
def errorReactionNotDefined (name : Text) (line : Nat) (file : Text) : Res Raised :=
  raise ⟨"The reaction for the dependent substance is not defined.".toList,
    "The reaction symbol for the dependent substance ".toList ++ name ++ " is not defined.".toList, some line, file⟩ 172

/-- `errorSolventNotDefined`, Exception.cpp:175-183. -/
def errorSolventNotDefined (name : Text) (line : Nat) (file : Text) : Res Raised :=
  raise ⟨"Solvent symbol not defiend".toList, "The solvent symbol for ".toList ++ name ++ " was not defined.".toList, some line, file⟩ 182

/-- `errorModelParameters`, Exception.cpp:185-193. -/
def errorModelParameters (type name : Text) (line : Nat) (file : Text) : Res Raised :=
  raise ⟨"The parameters of the model are not correctly defiend".toList,
    "The ".toList ++ type ++ " parameters for ".toList ++ name ++ " were not correctly defined. ".toList, some line, file⟩ 192

/-- `errorSameSymbol`, Exception.cpp:195-203. -/
def errorSameSymbol (type name : Text) (line : Nat) (file : Text) : Res Raised :=
  raise ⟨"Initializing Thermufun database.".toList,
    "Duplicate symbol for ".toList ++ type ++ [' '] ++ name ++ " was encountered! ".toList, some line, file⟩ 202

/-- `errorNotMatchingLevel`, Exception.cpp:205-213. -/
def errorNotMatchingLevel (type name : Text) (line : Nat) (file : Text) : Res Raised :=
  raise ⟨"Not matching level in the graph traversal".toList, "For ".toList ++ type ++ [' '] ++ name ++ [' '], some line, file⟩ 212

/-- `errorNonExistent`, Database.cpp:18-25: raises directly, sets the line and no file. -/
def errorNonExistent (type name : Text) (line : Nat) : Res Raised :=
  raise ⟨"Cannot get an instance of the ".toList ++ type ++ " `".toList ++ name ++ "` in the database.".toList,
    "There is no such ".toList ++ type ++ " in the database.".toList, some line, []⟩ 24

/-- The error of `getElement`, Database.cpp:176-180, for a symbol that is not there. -/
def missingElement (name : Text) : Res Raised := errorNonExistent "element".toList name 179
/-- The error of `getSubstance`, Database.cpp:184-188, for a symbol that is not there. -/
def missingSubstance (name : Text) : Res Raised := errorNonExistent "substance".toList name 187
/-- The error of `getReaction`, Database.cpp:192-196, for a symbol that is not there. -/
def missingReaction (name : Text) : Res Raised := errorNonExistent "reaction".toList name 195

/-- The error of a solute of the HKF model of GEMS without parameters, SoluteHKFgems.cpp:29-36. -/
def hkfGemsNoParameters (symbol : Text) : Res Raised :=
  raise ⟨"Error in HKFgems EOS".toList,
    "The HKF paramteres for ".toList ++ symbol ++ " are not defined or are not correclty initialized.".toList, some 34, []⟩ 35

/-- The error of a solute of the model of Holland and Powell without parameters, SoluteHollandPowell98.cpp:36-44; the only direct place that
names its file.  `path` is the path by which the compiler knew that file (`__FILE__`). -/
def hp98NoParameters (path symbol : Text) : Res Raised :=
  raise ⟨"Error in Holland and Powell aq solute model".toList,
    "There are no model parameters given for ".toList ++ symbol ++ ['.'], some 42, path⟩ 43

/-- `checkModelValidity` of ThermoModelsSolvent.cpp:17-46: `none` when nothing is raised.  None of its three errors sets a line.  The numbers are
rational, `fmt` writes them. -/
def checkModelValidity (fmt : ℚ → Text) (T P Tmax _Tmin Pmax Pmin : ℚ) (model : Text) : Option (Res Raised) :=
  if T < 0 ∨ T > Tmax then
    some (raise ⟨"Out of T bound in model ".toList ++ model,
      "The provided temperature, ".toList ++ fmt T ++ " K,".toList ++ "is either negative or greater than the maximum allowed, ".toList ++ fmt Tmax
        ++ " K.".toList, none, []⟩ 26)
  else if P > Pmax then
    some (raise ⟨"Out of P bound in model ".toList ++ model,
      "The provided pressure, ".toList ++ fmt P ++ " Pa,".toList ++ "is greater than the maximum allowed, ".toList ++ fmt Pmax ++ " Pa.".toList,
      none, []⟩ 35)
  else if P < Pmin then
    some (raise ⟨"Out of P bound in model ".toList ++ model,
      "The provided pressure, ".toList ++ fmt P ++ " Pa,".toList ++ "is lower than the minimum allowed, ".toList ++ fmt Pmin ++ " Pa.".toList,
      none, []⟩ 44)
  else none

/-- The test of the model of Zhang and Duan for water, ThermoModelsSolvent.cpp:223, 237. -/
def zhangDuanCheck (fmt : ℚ → Text) (T P : ℚ) : Option (Res Raised) :=
  checkModelValidity fmt T P 2273.15 273.15 30000000000 100000000 "Zhang and Duan (2005) H2O model.".toList

/-! ## The log -/

/-- The sinks of the library spdlog used in Exception.cpp: the coloured console (37), the rotating file (44), the plain file (62). -/
inductive Sink where
  | console
  | rotating (name : Text) (maxSize maxFiles : Nat)
  | basic (name : Text) (truncate : Bool)
deriving DecidableEq, Repr

/-- A logger of spdlog: its level and its sinks. -/
structure Logger where
  level : Nat
  sinks : List Sink
deriving DecidableEq, Repr

/-- The registry of spdlog as far as Exception.cpp:20-21, 52-53 reads it: a logger may be missing. -/
structure Registry where
  thermofun : Option Logger
  chemicalfun : Option Logger
deriving DecidableEq, Repr

/-- The level of `update_loggers`, Exception.cpp:26-29 (`info` is 2). -/
def levelOf (logLevel : Nat) : Nat := if logLevel < 7 then logLevel else 2

/-- `update_loggers`, Exception.cpp:18-48: the registry afterwards, and whether opening the file raised an error.  Opening happens after the level
was changed and the sinks were cleared.  `canOpen` says which files can be opened. -/
def updateLoggers (canOpen : Text → Bool) (useCout : Bool) (name : Text) (logLevel : Nat) (r : Registry) : Registry × Bool :=
  match r.thermofun, r.chemicalfun with
  | some _, some _ =>
      let lev := levelOf logLevel
      if useCout then (⟨some ⟨lev, [.console]⟩, some ⟨lev, [.console]⟩⟩, false)
      else if name ≠ [] then
        if canOpen name then (⟨some ⟨lev, [.rotating name 1048576 3]⟩, some ⟨lev, [.rotating name 1048576 3]⟩⟩, false)
        else (⟨some ⟨lev, []⟩, some ⟨lev, []⟩⟩, true)
      else (⟨some ⟨lev, []⟩, some ⟨lev, []⟩⟩, false)
  | _, _ => (r, false)

/-- `clear_loggers`, Exception.cpp:50-66. -/
def clearLoggers (canOpen : Text → Bool) (name : Text) (r : Registry) : Registry × Bool :=
  match r.thermofun, r.chemicalfun with
  | some t, some c =>
      if name ≠ [] then
        if canOpen name then (⟨some ⟨t.level, [.basic name true]⟩, some ⟨c.level, [.basic name true]⟩⟩, false)
        else (⟨some ⟨t.level, []⟩, some ⟨c.level, []⟩⟩, true)
      else (⟨some ⟨t.level, []⟩, some ⟨c.level, []⟩⟩, false)
  | _, _ => (r, false)

end ThermoFun.Errors
