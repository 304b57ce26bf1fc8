/-!
Generated by `tools/gen_terminal.py` from `/repo/docs/Terminal.md:42-44`, `94-132`, `149-151`, `214-215`, `278-308`: the escape sequences
that programs write and that keys send.
-/

namespace Verif.Tables

/-- A part of a sequence: a scalar, a number, attributes, a string, modifiers. -/
inductive Part where
  | lit (c : Char)
  | number
  | attributes
  | string
  | modifier
  | optModifier
  deriving DecidableEq, Repr

def terminalRows : List (List Part) := [
  [.lit '\x1b', .lit '[', .lit 'K'],
  [.lit '\x1b', .lit '[', .lit '0', .lit 'K'],
  [.lit '\x1b', .lit '[', .lit '2', .lit 'K'],
  [.lit '\x1b', .lit '[', .lit '?', .lit '1', .lit '0', .lit '4', .lit '9', .lit 'h'],
  [.lit '\x1b', .lit '7'],
  [.lit '\x1b', .lit '8'],
  [.lit '\x1b', .lit 'H'],
  [.lit '\x1b', .lit 'M'],
  [.lit '\x1b', .lit '[', .number, .lit '@'],
  [.lit '\x1b', .lit '[', .number, .lit 'A'],
  [.lit '\x1b', .lit '[', .number, .lit 'B'],
  [.lit '\x1b', .lit '[', .number, .lit 'C'],
  [.lit '\x1b', .lit '[', .number, .lit 'D'],
  [.lit '\x1b', .lit '[', .number, .lit 'G'],
  [.lit '\x1b', .lit '[', .number, .lit ';', .number, .lit 'H'],
  [.lit '\x1b', .lit '[', .lit 'H'],
  [.lit '\x1b', .lit '[', .number, .lit 'I'],
  [.lit '\x1b', .lit '[', .lit '0', .lit 'J'],
  [.lit '\x1b', .lit '[', .lit 'J'],
  [.lit '\x1b', .lit '[', .lit '1', .lit 'J'],
  [.lit '\x1b', .lit '[', .lit '2', .lit 'J'],
  [.lit '\x1b', .lit '[', .number, .lit 'L'],
  [.lit '\x1b', .lit '[', .number, .lit 'M'],
  [.lit '\x1b', .lit '[', .number, .lit 'P'],
  [.lit '\x1b', .lit '[', .number, .lit 'S'],
  [.lit '\x1b', .lit '[', .number, .lit 'T'],
  [.lit '\x1b', .lit '[', .number, .lit 'X'],
  [.lit '\x1b', .lit '[', .number, .lit 'Z'],
  [.lit '\x1b', .lit '[', .number, .lit 'd'],
  [.lit '\x1b', .lit '[', .number, .lit ';', .number, .lit 'f'],
  [.lit '\x1b', .lit '[', .lit 'f'],
  [.lit '\x1b', .lit '[', .lit '3', .lit 'g'],
  [.lit '\x1b', .lit '[', .lit '?', .lit '2', .lit '5', .lit 'h'],
  [.lit '\x1b', .lit '[', .lit '?', .lit '1', .lit '0', .lit '4', .lit '9', .lit 'h'],
  [.lit '\x1b', .lit '[', .lit '?', .lit '2', .lit '0', .lit '0', .lit '4', .lit 'h'],
  [.lit '\x1b', .lit '[', .lit '?', .lit '2', .lit '5', .lit 'l'],
  [.lit '\x1b', .lit '[', .lit '?', .lit '1', .lit '0', .lit '4', .lit '9', .lit 'l'],
  [.lit '\x1b', .lit '[', .lit '?', .lit '2', .lit '0', .lit '0', .lit '4', .lit 'l'],
  [.lit '\x1b', .lit '[', .lit '!', .lit 'p'],
  [.lit '\x1b', .lit '[', .number, .lit ';', .number, .lit 'r'],
  [.lit '\x1b', .lit '[', .lit 'r'],
  [.lit '\x1b', .lit '[', .attributes, .lit 'm'],
  [.lit '\x1b', .lit '[', .lit '3', .lit '8', .lit ';', .lit '2', .lit ';', .number, .lit ';', .number, .lit ';', .number, .lit 'm'],
  [.lit '\x1b', .lit '[', .lit '4', .lit '8', .lit ';', .lit '2', .lit ';', .number, .lit ';', .number, .lit ';', .number, .lit 'm'],
  [.lit '\x1b', .lit ']', .lit '0', .lit ';', .string, .lit '\x07'],
  [.lit '\x1b', .lit ']', .lit '2', .lit ';', .string, .lit '\x07'],
  [.lit '\x1b', .lit '[', .lit 'A'],
  [.lit '\x1b', .lit '[', .lit 'B'],
  [.lit '\x1b', .lit '[', .lit 'C'],
  [.lit '\x1b', .lit '[', .lit 'D'],
  [.lit '\x1b', .lit '[', .lit 'F'],
  [.lit '\x1b', .lit '[', .lit 'H'],
  [.lit '\x1b', .lit '[', .lit '1', .modifier, .lit 'A'],
  [.lit '\x1b', .lit '[', .lit '1', .modifier, .lit 'B'],
  [.lit '\x1b', .lit '[', .lit '1', .modifier, .lit 'C'],
  [.lit '\x1b', .lit '[', .lit '1', .modifier, .lit 'D'],
  [.lit '\x1b', .lit '[', .lit 'Z'],
  [.lit '\x1b', .lit '[', .lit '1', .modifier, .lit '~'],
  [.lit '\x1b', .lit '[', .lit '2', .optModifier, .lit '~'],
  [.lit '\x1b', .lit '[', .lit '3', .optModifier, .lit '~'],
  [.lit '\x1b', .lit '[', .lit '4', .modifier, .lit '~'],
  [.lit '\x1b', .lit '[', .lit '5', .optModifier, .lit '~'],
  [.lit '\x1b', .lit '[', .lit '6', .optModifier, .lit '~'],
  [.lit '\x1b', .lit '[', .lit '1', .lit '1', .optModifier, .lit '~'],
  [.lit '\x1b', .lit '[', .lit '1', .lit '2', .optModifier, .lit '~'],
  [.lit '\x1b', .lit '[', .lit '1', .lit '3', .optModifier, .lit '~'],
  [.lit '\x1b', .lit '[', .lit '1', .lit '4', .optModifier, .lit '~'],
  [.lit '\x1b', .lit '[', .lit '1', .lit '5', .optModifier, .lit '~'],
  [.lit '\x1b', .lit '[', .lit '1', .lit '7', .optModifier, .lit '~'],
  [.lit '\x1b', .lit '[', .lit '1', .lit '8', .optModifier, .lit '~'],
  [.lit '\x1b', .lit '[', .lit '1', .lit '9', .optModifier, .lit '~'],
  [.lit '\x1b', .lit '[', .lit '2', .lit '0', .optModifier, .lit '~'],
  [.lit '\x1b', .lit '[', .lit '2', .lit '1', .optModifier, .lit '~'],
  [.lit '\x1b', .lit '[', .lit '2', .lit '3', .optModifier, .lit '~'],
  [.lit '\x1b', .lit '[', .lit '2', .lit '4', .optModifier, .lit '~'],
  [.lit '\x1b', .lit '[', .lit '2', .lit '0', .lit '0', .optModifier, .lit '~'],
  [.lit '\x1b', .lit '[', .lit '2', .lit '0', .lit '1', .optModifier, .lit '~']]

end Verif.Tables
