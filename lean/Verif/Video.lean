import Mathlib.Data.List.Lex
import Mathlib.Data.Char

/-!
# Saved pictures and videos (mbd/utils.py:66-168)

The animation directory is a list of named files.  A video is the list of the pictures it shows, in
order.  File names are lists of characters; python's `sorted` compares them lexicographically by code
points (all paths share the directory part).  `ffmpeg` is modelled by what it does with its inputs
(image sequences, concatenation) and a flag telling whether it succeeds.
-/

namespace Mbd

/-- A file name without the directory. (utils.py:66-168) -/
abbrev FileName := List Char

/-- A saved file: a picture, a video (its pictures in order), or anything else. (utils.py:66-168) -/
inductive SavedFile (P : Type) where
  | picture (p : P)
  | video (ps : List P)
  | other

/-- The animation directory. (utils.py:66-82) -/
abbrev Dir (P : Type) := List (FileName × SavedFile P)

/-- The file of a given name. (utils.py:85-168) -/
def Dir.file {P : Type} (d : Dir P) (n : FileName) : Option (SavedFile P) :=
  (d.find? fun f => f.1 == n).map Prod.snd

/-- Writing a file, replacing one of the same name. (utils.py:452-457, 629, 106-111) -/
def Dir.write {P : Type} (d : Dir P) (n : FileName) (f : SavedFile P) : Dir P :=
  (n, f) :: d.filter fun g => !(g.1 == n)

/-- `f"{k:0wd}"`: decimal digits, filled with zeros on the left to width `w`.
(utils.py:452, 628; stat_mbd.py:436) -/
def padded (w k : ℕ) : List Char := List.leftpad w '0' (Nat.toDigits 10 k)

/-- `frame_{idx:04d}.png` (utils.py:452, 628). -/
def frameName (k : ℕ) : FileName := "frame_".toList ++ padded 4 k ++ ".png".toList

/-- `progress_trial_{i+1:03d}.mp4` for trial number `k = i + 1` (stat_mbd.py:436). -/
def trialName (k : ℕ) : FileName := "progress_trial_".toList ++ padded 3 k ++ ".mp4".toList

/-- `glob("*.png")` (utils.py:80, 117). -/
def isPng (n : FileName) : Bool := ".png".toList.isSuffixOf n

/-- `glob("frame_*.png")` (utils.py:97). -/
def isFrame (n : FileName) : Bool := "frame_".toList.isPrefixOf n && isPng n

/-- `glob("progress_trial_*.mp4")` (utils.py:137).  The star also matches nothing. -/
def isProgress (n : FileName) : Bool :=
  "progress_trial_".toList.isPrefixOf n && ".mp4".toList.isSuffixOf n

/-- `setup_animation_saving`: all pictures are deleted, videos stay (utils.py:66-82). -/
def setupSaving {P : Type} (d : Dir P) : Dir P := d.filter fun f => !isPng f.1

/-- Saving the pictures of an animation, numbered from `k` (utils.py:450-458, 627-630). -/
def saveFrames {P : Type} (d : Dir P) (k : ℕ) : List P → Dir P
  | [] => d
  | p :: ps => saveFrames (d.write (frameName k) (.picture p)) (k + 1) ps

/-- The pictures `ffmpeg -i frame_%04d.png` reads from number `k` on: until the first missing number
(`fuel`: at most as many as there are files). (utils.py:105-111) -/
def readFrames {P : Type} (d : Dir P) : ℕ → ℕ → List P
  | 0, _ => []
  | fuel + 1, k =>
    match d.file (frameName k) with
    | some (.picture p) => p :: readFrames d fuel (k + 1)
    | _ => []

/-- `export_video` (utils.py:85-123): nothing happens without pictures; otherwise the image sequence
becomes the video and, if ffmpeg succeeds (`ok`), the pictures are deleted.  ffmpeg begins with the
first number from 0 to 4 that exists; the pictures saved here always begin with 0. -/
def exportVideo {P : Type} (ok : Bool) (d : Dir P) (name : FileName) : Dir P :=
  if d.any fun f => isFrame f.1 then
    if ok then (d.write name (.video (readFrames d (d.length + 1) 0))).filter fun f => !isPng f.1 else d
  else d

/-- Saving one animation (utils.py:184, 450-472): set up, save the pictures, make the video. -/
def saveAnimation {P : Type} (ok : Bool) (d : Dir P) (name : FileName) (ps : List P) : Dir P :=
  exportVideo ok (saveFrames (setupSaving d) 0 ps) name

/-- The progress videos of an evaluation, trial numbers from `k + 1` on (stat_mbd.py:389-448). -/
def progressVideos {P : Type} (d : Dir P) (k : ℕ) : List (List P) → Dir P
  | [] => d
  | ps :: rest => progressVideos (saveAnimation true d (trialName (k + 1)) ps) (k + 1) rest

/-- `merge_progress_videos` (utils.py:126-168): the progress videos in the order of their sorted names,
one after the other; `none` if there are none. -/
def mergeProgress {P : Type} (d : Dir P) : Option (List P) :=
  let names := ((d.map Prod.fst).filter isProgress).mergeSort fun a b => decide (a ≤ b)
  if names = [] then none
  else some (names.flatMap fun n => match d.file n with
    | some (.video ps) => ps
    | _ => [])

/-- The progress videos and the merged video of an evaluation with `save_progress_animation`
(stat_mbd.py:389-448, 504-505). -/
def evaluationVideo {P : Type} (d : Dir P) (trials : List (List P)) : Option (List P) :=
  mergeProgress (progressVideos d 0 trials)

end Mbd
