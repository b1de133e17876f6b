"""Compare the lines of /repo cited in the model and in DESIGN.md with the functions there.

Prints the citations that leave a file, end inside a function that they begin before, or go from
the middle of one function into another.  A citation of several functions in part is reported too
and may be right."""
import glob
import os
import re

SRC = {}


def funcs(f):
    if f not in SRC:
        p = "/repo/" + f
        if not os.path.exists(p):
            SRC[f] = None
        else:
            lines, out = open(p).read().split("\n"), []
            for i, l in enumerate(lines):
                if l.startswith("func "):
                    j = i
                    if not l.rstrip().endswith("}"):
                        while lines[j] != "}":
                            j += 1
                    out.append((i + 1, j + 1))
            SRC[f] = (len(lines), out)
    return SRC[f]


def main():
    root = os.path.dirname(os.path.dirname(os.path.abspath(__file__)))
    for p in sorted(glob.glob(root + "/lean/Verif/*.lean") + [root + "/DESIGN.md"]):
        for n, line in enumerate(open(p), 1):
            for m in re.finditer(r"([\w/-]+\.go):(\d+)(?:-(\d+))?", line):
                a, b = int(m.group(2)), int(m.group(3) or m.group(2))
                r, where = funcs(m.group(1)), f"{os.path.basename(p)}:{n} {m.group(0)}"
                if r is None:
                    print("no such file", where)
                elif b > r[0] or a > b:
                    print("outside the file", where)
                else:
                    over = [x for x in r[1] if not (x[1] < a or x[0] > b)]
                    if over and a <= over[0][0] and over[-1][0] < b != over[-1][1]:
                        print("ends elsewhere", where, over[0][0], over[-1][1])
                    if over and a > over[0][0] and b > over[0][1]:
                        print("crosses functions", where, *over[0])


main()
