"""Generate lean/Verif/Model/EmlinesInfo.lean from /repo/dsps/data/emlines_info.dat"""
lines = open('/repo/dsps/data/emlines_info.dat').read().split('\n')
assert lines[-1] == '' and len(lines) == 167
lines = lines[:-1]
out = '''/- GENERATED by tools/gen_emlines.py from /repo/dsps/data/emlines_info.dat -/
import Verif.Py

namespace Dsps.EmlinesInfo
open Py

/-- `/repo/dsps/data/emlines_info.dat:1-166`, one entry per line, without the line terminators. -/
def lines : List Str := [
'''
out += ',\n'.join('  chars! "%s"' % l for l in lines) + ']\n\n'
out += '''/-- The text of the shipped file: every line ends with a newline. -/
def contents : Str := (lines.map fun l => l ++ ['\\n']).flatten

end Dsps.EmlinesInfo
'''
open('/verif/lean/Verif/Model/EmlinesInfo.lean', 'w').write(out)
