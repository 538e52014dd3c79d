import Verif.Lemmas.Conn.ShakeLevels

/- Exploration of the abstract handshake, part 2 of 5. -/

namespace M3.Conn.Shake

theorem part2 : later 14 level46 = some level60 := by decide +kernel

end M3.Conn.Shake
