import Verif.Model.Show
/-!
# The layout of a printed session

The lines a session prints, in order, without their line ends.
-/

namespace Sdp

/-- The lines for a list of texts of one kind: a line for every text that is not empty. If there are
texts but all are empty, a single line without a value is left. -/
def textLines (letter : Str) (ts : List Str) : List Str :=
  if ts = [] then []
  else if ∀ t ∈ ts, t = [] then [letter]
  else (ts.filter (fun t => decide (t ≠ []))).map (fun t => letter ++ t)

/-- b= lines, a c= line, a= lines. -/
def bodyLines (bs : List Bandwidth) (c : Option Connection) (as : List Attribute) : List Str :=
  textLines c%"b=" (bs.map showBandwidth) ++ (c.toList.map (fun c => c%"c=" ++ showConnection c) ++
    textLines c%"a=" (as.map showAttribute))

/-- The lines of a media section. -/
def Media.lines (m : Media) : List Str :=
  (c%"m=" ++ showMediaLine m.media) :: bodyLines m.bandwidth m.connection m.attrs

/-- The lines of a session. -/
def Session.lines (s : Session) : List Str :=
  [c%"v=" ++ showU64 s.version, c%"o=" ++ showOrigin s.origin, c%"s=" ++ s.session.getD c%" "] ++
    (s.timing.toList.map (fun t => c%"t=" ++ showTiming t) ++
      (bodyLines s.bandwidth s.connection s.attrs ++ s.media.flatMap Media.lines))

/-- Every line with its CR LF. -/
def crlf (ls : List Str) : Str := ls.flatMap (fun l => l ++ ['\r', '\n'])

end Sdp
