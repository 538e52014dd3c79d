import Verif.Lemmas.Conn.ShakeLevels

/- Exploration of the abstract handshake, part 5 of 5. -/

namespace M3.Conn.Shake

theorem part5 : check 8 level71 = true := by decide +kernel

end M3.Conn.Shake
