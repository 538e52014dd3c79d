import Verif.Lemmas.Conn.ShakeLevels

/- Exploration of the abstract handshake, part 1 of 5. -/

namespace M3.Conn.Shake

theorem part1 : later 46 [(0, P.init)] = some level46 := by decide +kernel

end M3.Conn.Shake
