/-
The command line of psignify as its usage text describes it, independent of the model of flag parsing: what the user can write
and which setting each option makes.
-/
import Verif.Model.Cli

namespace Verif.Spec

/-- One option as the user writes it: the letter with or without a value, and the number of dashes. -/
inductive Item where
  /-- `-S`, `--S` -/
  | switch (double : Bool) (letter : UInt8)
  /-- `-m file` (two arguments) -/
  | pair (double : Bool) (letter : UInt8) (value : Bytes)
  /-- `-m=file` -/
  | joined (double : Bool) (letter : UInt8) (value : Bytes)

/-- One or two dashes. -/
def dashes (double : Bool) : Bytes := if double then b!"--" else b!"-"

/-- The arguments that an option consists of. -/
def Item.args : Item → List Bytes
  | .switch d l => [dashes d ++ [l]]
  | .pair d l v => [dashes d ++ [l], v]
  | .joined d l v => [dashes d ++ l :: 61 :: v]

/-- Letters that take a value: c, m, p, s, x. -/
def valueLetters : Bytes := b!"cmpsx"

/-- Letters that switch something on: n, D, E, G, S, V. -/
def switchLetters : Bytes := b!"nDEGSV"

/-- The option is used as intended: values for the letters that take one, none for the switches. -/
def Item.Proper : Item → Prop
  | .switch _ l => l ∈ switchLetters
  | .pair _ l _ => l ∈ valueLetters
  | .joined _ l _ => l ∈ valueLetters

/-- The value that an option gives to a letter. -/
def Item.valueOf (l : UInt8) : Item → Option Bytes
  | .switch _ _ => none
  | .pair _ l' v => if l' = l then some v else none
  | .joined _ l' v => if l' = l then some v else none

/-- The value of a letter on a command line: that of its last occurrence, empty if there is none. -/
def valueIn (items : List Item) (l : UInt8) : Bytes := ((items.filterMap (Item.valueOf l)).getLast?).getD []

/-- The option is this switch. -/
def Item.isSwitch (l : UInt8) : Item → Bool
  | .switch _ l' => l' == l
  | _ => false

/-- The switch occurs on the command line. -/
def hasSwitch (items : List Item) (l : UInt8) : Bool := items.any (Item.isSwitch l)

/-- What the usage text says the letters mean: c the encrypted file, m the message, n no passphrase, p the public key (or the name
of the key pair), s the private key, x the signature; D decrypt, E encrypt, G generate, S sign, V verify. -/
def settings (items : List Item) : Flags :=
  { encryptedFile := valueIn items 99, messageFile := valueIn items 109, noPass := hasSwitch items 110,
    pubKeyFile := valueIn items 112, privKeyFile := valueIn items 115, signatureFile := valueIn items 120,
    decrypt := hasSwitch items 68, encrypt := hasSwitch items 69, generate := hasSwitch items 71,
    sign := hasSwitch items 83, verify := hasSwitch items 86 }

/-- The end of the options: nothing, `--`, or an argument that is not an option. -/
def EndsOptions : List Bytes → Prop
  | [] => True
  | a :: _ => a = b!"--" ∨ a = b!"-" ∨ a.head? ≠ some 45

end Verif.Spec
