import Verif.Model.Tensor

/-!
# Transcript files

Model of `_parse_text_line` and of the loops over transcript files in
`src/torchrir/datasets/cmu_arctic.py` (126-141, 197-202) and `librispeech.py` (98-124, 195-198).
A string is the list of its characters. Simplified: decoding of UTF-8 is left out; `\r\n` and `\r` are
treated as line ends like Python's universal newlines do (the empty lines this adds are skipped).
-/

namespace Torchrir.Model

/-- `str.isspace` for one character: the characters that `strip` and `split` treat as blanks. -/
def isBlank (c : Char) : Bool :=
  (9 ≤ c.toNat && c.toNat ≤ 13) || (28 ≤ c.toNat && c.toNat ≤ 32) || c.toNat == 0x85 || c.toNat == 0xa0 ||
  c.toNat == 0x1680 || (0x2000 ≤ c.toNat && c.toNat ≤ 0x200a) || c.toNat == 0x2028 || c.toNat == 0x2029 ||
  c.toNat == 0x202f || c.toNat == 0x205f || c.toNat == 0x3000

/-- `s.rstrip()`. -/
def rstrip (s : List Char) : List Char := (s.reverse.dropWhile isBlank).reverse

/-- `s.strip()`. -/
def strip (s : List Char) : List Char := rstrip (s.dropWhile isBlank)

/-- `s.partition(c)`, without the separator. -/
def partition (c : Char) (s : List Char) : List Char × List Char :=
  (s.takeWhile (fun x => x != c), (s.dropWhile (fun x => x != c)).drop 1)

/-- `s.split()[0]`. -/
def firstWord (s : List Char) : Except String (List Char) :=
  if s.dropWhile isBlank = [] then .error "list index out of range"
  else .ok ((s.dropWhile isBlank).takeWhile fun x => !isBlank x)

/-- `s.rsplit(c, 1)[0]`: what comes before the last `c`, everything if there is none. -/
def beforeLast (c : Char) (s : List Char) : List Char :=
  if c ∈ s then ((s.reverse.dropWhile fun x => x != c).drop 1).reverse else s

/-- `_parse_text_line` (cmu_arctic.py 197-202). -/
def parseCmuLine (line : List Char) : Except String (List Char × List Char) :=
  match firstWord (strip ((partition '"' line).1.filter fun x => x != '(')) with
  | .error e => .error e
  | .ok utterance => .ok (utterance, beforeLast '"' (partition '"' line).2)

/-- `_parse_text_line` (librispeech.py 195-198). -/
def parseLibriLine (line : List Char) : List Char × List Char :=
  ((partition ' ' line).1, strip (partition ' ' line).2)

/-- The lines of a text file. -/
def fileLines (s : List Char) : List (List Char) := s.splitOnP fun c => c == '\n' || c == '\r'

/-- `CmuArcticDataset.sentences` (cmu_arctic.py 126-136). -/
def cmuSentences (content : List Char) : Except String (List (List Char × List Char)) :=
  (((fileLines content).map strip).filter fun l => !l.isEmpty).mapM parseCmuLine

/-- `CmuArcticDataset.available_sentences` (cmu_arctic.py 138-141); `wavIds` are the stems of the wav
files. -/
def cmuAvailable (content : List Char) (wavIds : List (List Char)) :
    Except String (List (List Char × List Char)) :=
  (cmuSentences content).map fun l => l.filter fun s => decide (s.1 ∈ wavIds)

/-- The loop over one transcript file in `LibriSpeechDataset.available_sentences`
(librispeech.py 108-123); `flacIds` are the stems of the flac files next to it. -/
def libriAvailable (content : List Char) (flacIds : List (List Char)) : List (List Char × List Char) :=
  ((((fileLines content).map strip).filter fun l => !l.isEmpty).map parseLibriLine).filter
    fun s => decide (s.1 ∈ flacIds)

end Torchrir.Model
