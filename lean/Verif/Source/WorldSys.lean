/-
The operating system of the model (Verif/Model/World.lean) as the system that Go texts run on.
-/
import Verif.Source.Lib
import Verif.Model.World

namespace Verif.Src

/-- `terminal.ReadPassword`, for a program that keeps the buffer in its own memory. -/
def typedPassword : Act World Bytes := fun w =>
  match w.tty with
  | [] => (.err .io, w)
  | none :: rest => (.err .io, { w with tty := rest })
  | some s :: rest => (.ok s, { w with tty := rest })

/-- The system. The fields `bufs` and `prompts` of a world, which record what the model of the program did with passphrases,
play no part in it. -/
def worldSys (P : Prims) : Sys World where
  prims := P
  readFile := World.readFile
  writeFile := World.writeFile
  openFile := World.openFile
  create := World.create
  size := World.fileSize
  read := World.readHandle
  write := World.writeHandle
  entropy := World.entropy
  readPassword := typedPassword
  print bs := fun w => (.ok (), w.print bs)

end Verif.Src
