/-! The alphabets of 3GPP TS 23.038: the GSM 7 bit default alphabet and its extension (6.2.1), and the national
language single shift and locking shift tables (annex A), transcribed from the standard and not from the code.
A table gives the character of a septet.  What the standard calls CR2, septet 0x0d of a shift table, is a control
character without a meaning of its own: it is left out. -/

namespace Verif.Spec.Alphabet

/-- Table 6.2.1.1, the default alphabet, 16 septets a line. -/
def defaultChars : List Char := [
  '@', '£', '$', '¥', 'è', 'é', 'ù', 'ì', 'ò', 'Ç', '\n', 'Ø', 'ø', '\r', 'Å', 'å',
  'Δ', '_', 'Φ', 'Γ', 'Λ', 'Ω', 'Π', 'Ψ', 'Σ', 'Θ', 'Ξ', '\x1b', 'Æ', 'æ', 'ß', 'É',
  ' ', '!', '"', '#', '¤', '%', '&', '\'', '(', ')', '*', '+', ',', '-', '.', '/',
  '0', '1', '2', '3', '4', '5', '6', '7', '8', '9', ':', ';', '<', '=', '>', '?',
  '¡', 'A', 'B', 'C', 'D', 'E', 'F', 'G', 'H', 'I', 'J', 'K', 'L', 'M', 'N', 'O',
  'P', 'Q', 'R', 'S', 'T', 'U', 'V', 'W', 'X', 'Y', 'Z', 'Ä', 'Ö', 'Ñ', 'Ü', '§',
  '¿', 'a', 'b', 'c', 'd', 'e', 'f', 'g', 'h', 'i', 'j', 'k', 'l', 'm', 'n', 'o',
  'p', 'q', 'r', 's', 't', 'u', 'v', 'w', 'x', 'y', 'z', 'ä', 'ö', 'ñ', 'ü', 'à']

/-- The characters of a list of rows: a first septet and the characters from there on. -/
def row (rows : List (Nat × List Nat)) (g : Nat) : Option Nat :=
  match rows with
  | [] => none
  | (start, cs) :: rows => if start ≤ g ∧ g < start + cs.length then cs[g - start]? else row rows g

/-- The code points from `a` to `b`. -/
def upTo (a b : Nat) : List Nat := (List.range (b + 1 - a)).map (a + ·)

/-- The code points of characters. -/
def codes (cs : List Char) : List Nat := cs.map Char.toNat

/-- Table 6.2.1.2.4 (A.2.0): the extension of the default alphabet. -/
def defaultExt : List (Nat × List Nat) := [(0x0a, codes ['\x0c']), (0x14, codes ['^']), (0x28, codes ['{', '}']),
  (0x2f, codes ['\\']), (0x3c, codes ['[', '~', ']']), (0x40, codes ['|']), (0x65, codes ['€'])]

/-- A.3.1: Turkish, where it differs from the default alphabet. -/
def turkish : List (Nat × List Nat) := [(0x04, codes ['€']), (0x07, codes ['ı']), (0x0b, codes ['Ğ', 'ğ']),
  (0x1c, codes ['Ş', 'ş']), (0x40, codes ['İ']), (0x60, codes ['ç'])]

/-- A.3.3: Portuguese, where it differs from the default alphabet. -/
def portuguese : List (Nat × List Nat) := [(0x04, codes ['ê', 'é', 'ú', 'í', 'ó', 'ç']), (0x0b, codes ['Ô', 'ô']),
  (0x0e, codes ['Á', 'á']), (0x12, codes ['ª', 'Ç', 'À', '∞', '^', '\\', '€', 'Ó', '|']), (0x1c, codes ['Â', 'â', 'Ê']),
  (0x24, codes ['º']), (0x40, codes ['Í']), (0x5b, codes ['Ã', 'Õ', 'Ú']), (0x60, codes ['~']),
  (0x7b, codes ['ã', 'õ', '`'])]

/-- What the locking shift tables of A.3.4 to A.3.13 have in common. -/
def lockingCommon : List (Nat × List Nat) := [(0x0a, codes ['\n']), (0x0d, codes ['\r']), (0x1b, [0x1b]), (0x20, codes [' ', '!']),
  (0x28, codes [')', '(']), (0x2c, codes [',']), (0x2e, codes ['.']), (0x30, upTo 0x30 0x3b), (0x3f, codes ['?']), (0x61, upTo 0x61 0x7a)]

/-- The Indic scripts have parallel blocks in Unicode, and parallel locking shift tables: the offset in the block
of the script. -/
def indicLayout : List (Nat × List Nat) := [(0x00, [0x01, 0x02, 0x03]), (0x03, upTo 0x05 0x0b), (0x0b, [0x0c, 0x0d]), (0x0e, upTo 0x0e 0x1a),
  (0x1c, upTo 0x1b 0x1e), (0x22, upTo 0x1f 0x24), (0x2a, [0x25, 0x26]), (0x2d, [0x27]), (0x2f, [0x28]), (0x3c, [0x29, 0x2a, 0x2b]),
  (0x40, upTo 0x2c 0x39), (0x4e, [0x3c]), (0x4f, upTo 0x3d 0x4d)]

/-- A locking shift table of an Indic script: its block, the offsets that are not in the table, the character of
septet 0x60 and those of the septets from 0x7b. -/
def indic (block : Nat) (holes : List Nat) (c60 : Nat) (c7b : List Nat) (g : Nat) : Option Nat :=
  match row lockingCommon g with
  | some c => some c
  | none => match row [(0x60, [c60]), (0x7b, c7b)] g with
    | some c => some c
    | none => match row indicLayout g with
      | some off => if off ∈ holes then none else some (block + off)
      | none => none

/-- A.3.13: Urdu, without the common part. -/
def urdu : List (Nat × List Nat) := [
  (0x00, [0x0627, 0x0622, 0x0628, 0x067b, 0x0680, 0x067e, 0x06a6, 0x062a, 0x06c2, 0x067f]),
  (0x0b, [0x0679, 0x067d]),
  (0x0e, [0x067a, 0x067c, 0x062b, 0x062c, 0x0681, 0x0684, 0x0683, 0x0685, 0x0686, 0x0687, 0x062d, 0x062e, 0x062f]),
  (0x1c, [0x068c, 0x0688, 0x0689, 0x068a]),
  (0x22, [0x068f, 0x068d, 0x0630, 0x0631, 0x0691, 0x0693]),
  (0x2a, [0x0699, 0x0632]), (0x2d, [0x0696]), (0x2f, [0x0698]),
  (0x3c, [0x069a, 0x0633, 0x0634]),
  (0x40, [0x0635, 0x0636, 0x0637, 0x0638, 0x0639, 0x0641, 0x0642, 0x06a9, 0x06aa, 0x06ab, 0x06af, 0x06b3, 0x06b1, 0x0644, 0x0645, 0x0646]),
  (0x50, [0x06ba, 0x06bb, 0x06bc, 0x0648, 0x06c4, 0x06d5, 0x06c1, 0x06be, 0x0621, 0x06cc, 0x06d0, 0x06d2, 0x064d, 0x0650, 0x064f, 0x0657]),
  (0x60, [0x0654]),
  (0x7b, [0x0655, 0x0651, 0x0653, 0x0656, 0x0670])]

/-- The character of septet `g` in the locking shift table of the language with identifier `nli`: 0, and every
language without a table, is the default alphabet. -/
def locking (nli : Int) (g : Nat) : Option Nat :=
  match nli with
  | 1 => match row turkish g with
    | some c => some c
    | none => row [(0, codes defaultChars)] g
  | 3 => match row portuguese g with
    | some c => some c
    | none => row [(0, codes defaultChars)] g
  | 4 => indic 0x0980 [0x0d, 0x0e, 0x11, 0x12, 0x29, 0x31, 0x33, 0x34, 0x35, 0x45, 0x46, 0x49, 0x4a] 0x09ce [0x09d7, 0x09dc, 0x09dd, 0x09f0, 0x09f1] g
  | 5 => indic 0x0a80 [0x0e, 0x12, 0x29, 0x31, 0x34, 0x46, 0x4a] 0x0ad0 [0x0ae0, 0x0ae1, 0x0ae2, 0x0ae3, 0x0af1] g
  | 6 => indic 0x0900 [] 0x0950 [0x0972, 0x097b, 0x097c, 0x097e, 0x097f] g
  | 7 => indic 0x0c80 [0x01, 0x0d, 0x11, 0x29, 0x34, 0x45, 0x49] 0x0cd5 [0x0cd6, 0x0ce0, 0x0ce1, 0x0ce2, 0x0ce3] g
  | 8 => indic 0x0d00 [0x01, 0x0d, 0x11, 0x29, 0x3c, 0x45, 0x49] 0x0d57 [0x0d60, 0x0d61, 0x0d62, 0x0d63, 0x0d79] g
  | 9 => indic 0x0b00 [0x0d, 0x0e, 0x11, 0x12, 0x29, 0x31, 0x34, 0x45, 0x46, 0x49, 0x4a] 0x0b56 [0x0b57, 0x0b60, 0x0b61, 0x0b62, 0x0b63] g
  | 10 => indic 0x0a00 [0x0b, 0x0c, 0x0d, 0x0e, 0x11, 0x12, 0x29, 0x31, 0x34, 0x37, 0x3d, 0x43, 0x44, 0x45, 0x46, 0x49, 0x4a] 0x0a51
      [0x0a70, 0x0a71, 0x0a72, 0x0a73, 0x0a74] g
  | 11 => indic 0x0b80 [0x01, 0x0b, 0x0c, 0x0d, 0x11, 0x16, 0x17, 0x18, 0x1b, 0x1d, 0x20, 0x21, 0x22, 0x25, 0x26, 0x27, 0x2b, 0x2c, 0x2d,
      0x3c, 0x3d, 0x43, 0x44, 0x45, 0x49] 0x0bd0 [0x0bd7, 0x0bf0, 0x0bf1, 0x0bf2, 0x0bf9] g
  | 12 => indic 0x0c00 [0x0d, 0x11, 0x29, 0x34, 0x3c, 0x45, 0x49] 0x0c55 [0x0c56, 0x0c60, 0x0c61, 0x0c62, 0x0c63] g
  | 13 => match row lockingCommon g with
    | some c => some c
    | none => row urdu g
  | _ => row [(0, codes defaultChars)] g

/-- A.2.1: Turkish, beside the extension of the default alphabet. -/
def turkishExt : List (Nat × List Nat) := [(0x47, codes ['Ğ']), (0x49, codes ['İ']), (0x53, codes ['Ş']), (0x63, codes ['ç']),
  (0x67, codes ['ğ']), (0x69, codes ['ı']), (0x73, codes ['ş'])]

/-- A.2.2: Spanish, beside the extension of the default alphabet. -/
def spanishExt : List (Nat × List Nat) := [(0x09, codes ['ç']), (0x41, codes ['Á']), (0x49, codes ['Í']), (0x4f, codes ['Ó']), (0x55, codes ['Ú']),
  (0x61, codes ['á']), (0x69, codes ['í']), (0x6f, codes ['ó']), (0x75, codes ['ú'])]

/-- A.2.3: Portuguese, beside the extension of the default alphabet. -/
def portugueseExt : List (Nat × List Nat) := [(0x05, codes ['ê']), (0x09, codes ['ç']), (0x0b, codes ['Ô', 'ô']), (0x0e, codes ['Á', 'á']),
  (0x12, codes ['Φ', 'Γ']), (0x15, codes ['Ω', 'Π', 'Ψ', 'Σ', 'Θ']), (0x1f, codes ['Ê']), (0x41, codes ['À']), (0x49, codes ['Í']),
  (0x4f, codes ['Ó']), (0x55, codes ['Ú']), (0x5b, codes ['Ã', 'Õ']), (0x61, codes ['Â']), (0x69, codes ['í']), (0x6f, codes ['ó']),
  (0x75, codes ['ú']), (0x7b, codes ['ã', 'õ']), (0x7f, codes ['â'])]

/-- What the single shift tables of A.2.4 to A.2.13 have in common, beside the extension of the default alphabet. -/
def shiftCommon : List (Nat × List Nat) := [
  (0x00, codes ['@', '£', '$', '¥', '¿', '"', '¤', '%', '&', '\'']), (0x0b, codes ['*', '+']),
  (0x0e, codes ['-', '/', '<', '=', '>', '¡']), (0x15, codes ['¡', '_', '#', '*']), (0x1b, [0x1b]), (0x41, upTo 0x41 0x5a)]

/-- The other septets of those tables, in the order in which they are used: from 0x19 to 0x3f, but for the ones
above. -/
def shiftFree : List Nat := [0x19, 0x1a, 0x1c, 0x1d, 0x1e, 0x1f, 0x20, 0x21, 0x22, 0x23, 0x24, 0x25, 0x26, 0x27, 0x2a, 0x2b, 0x2c, 0x2d, 0x2e,
  0x30, 0x31, 0x32, 0x33, 0x34, 0x35, 0x36, 0x37, 0x38, 0x39, 0x3a, 0x3b, 0x3f]

/-- The single shift table with these characters beside the common ones; 0 where there is none. -/
def shiftOf (cs : List Nat) (g : Nat) : Option Nat :=
  match row defaultExt g with
  | some c => some c
  | none => match row shiftCommon g with
    | some c => some c
    | none => match (shiftFree.zip cs).lookup g with
      | some 0 => none
      | c => c

/-- The two dandas. -/
def dandas : List Nat := [0x0964, 0x0965]

/-- The character of septet `g` in the single shift table of the language with identifier `nli`. -/
def shift (nli : Int) (g : Nat) : Option Nat :=
  match nli with
  | 1 => row (defaultExt ++ turkishExt) g
  | 2 => row (defaultExt ++ spanishExt) g
  | 3 => row (defaultExt ++ portugueseExt) g
  | 4 => shiftOf (upTo 0x09e6 0x09ef ++ upTo 0x09df 0x09e3 ++ upTo 0x09f2 0x09fa) g
  | 5 => shiftOf (dandas ++ upTo 0x0ae6 0x0aef) g
  | 6 => shiftOf (dandas ++ upTo 0x0966 0x096f ++ upTo 0x0951 0x0954 ++ upTo 0x0958 0x0963 ++ [0x0970, 0x0971]) g
  | 7 => shiftOf (dandas ++ upTo 0x0ce6 0x0cef ++ [0x0cde, 0x0cf1, 0x0cf2]) g
  | 8 => shiftOf (dandas ++ upTo 0x0d66 0x0d6f ++ upTo 0x0d70 0x0d75 ++ upTo 0x0d7a 0x0d7f) g
  | 9 => shiftOf (dandas ++ upTo 0x0b66 0x0b6f ++ [0x0b5c, 0x0b5d, 0x0b5f, 0x0b70, 0x0b71]) g
  | 10 => shiftOf (dandas ++ upTo 0x0a66 0x0a6f ++ [0x0a59, 0x0a5a, 0x0a5b, 0x0a5c, 0x0a5e, 0x0a75]) g
  | 11 => shiftOf (dandas ++ upTo 0x0be6 0x0bef ++ [0x0bf3, 0x0bf4, 0x0bf5, 0x0bf6, 0x0bf7, 0x0bf8, 0x0bfa]) g
  | 12 => shiftOf ([0, 0] ++ upTo 0x0c66 0x0c6f ++ [0x0c58, 0x0c59] ++ upTo 0x0c78 0x0c7f) g
  | 13 => shiftOf ([0x0600, 0x0601] ++ upTo 0x06f0 0x06f9 ++ upTo 0x060c 0x0614 ++
      [0x061b, 0x061f, 0x0640, 0x0652, 0x0658, 0x066b, 0x066c, 0x0672, 0x0673, 0x06cd, 0x06d4]) g
  | _ => row defaultExt g

/-- How septets are read (6.2.1): the escape, 0x1b, announces a septet of the shift table; if it has none there it
is read from the locking table.  What is in neither table is read as a space, and so is an escape that announces
nothing.  Septets beyond 0x7f do not exist; they are in no table. -/
def read (locking shift : Nat → Option Nat) : List Nat → List Nat
  | [] => []
  | 0x1b :: 0x1b :: rest => 0x20 :: read locking shift rest
  | 0x1b :: g :: rest => ((shift g).getD ((locking g).getD 0x20)) :: read locking shift rest
  | [0x1b] => [0x20]
  | g :: rest => ((locking g).getD 0x20) :: read locking shift rest

end Verif.Spec.Alphabet
