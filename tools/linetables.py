"""Generates the event tables of lean/Verif/Props/MultiShippedDemo.lean and MultiLate.lean (a master and two slaves on one line).
Times in tenths of a bit. Only a convenience: Lean checks that the tables are executions."""
import sys

def crc(bs, c=0xFFFF):
    for b in bs:
        c ^= b
        for _ in range(8):
            c = (c >> 1) ^ 0xA001 if c & 1 else c >> 1
    return c

def frame(bs):
    c = crc(bs)
    return bs + [c & 255, c >> 8]

BYTE = 110

class Dev:
    def __init__(self, name, master):
        self.name, self.master, self.ev, self.stall = name, master, [], []
        self.n = 0
    def add(self, t, op, out=''):
        self.ev.append((t, self.n, op, out)); self.n += 1
    def hear(self, t, bs):
        for i, b in enumerate(bs):
            self.add(t + BYTE * (i + 1), f'.usart (some {b}) false')
        return t + BYTE * len(bs)
    def silence(self, last, t15, t35):
        self.add(last + t15, '.rto')
        self.add(last + t15 + 2, '.usart none false')
        self.add(last + t35, '.timer')
        self.stall.append((last + t15, last + t15 + 2 if self.master else last + t35))
    def send(self, t, bs, fr):
        pre = '.lib (.send %s)' if self.master else '.send %s'
        self.add(t, '.main .poll', pre % fr + f', .tdr {bs[0]}')
        for i, b in enumerate(bs[1:]):
            self.add(t + BYTE * (i + 1), '.usart none true', f'.tdr {b}')
        self.add(t + BYTE * len(bs), '.usart none true')
    def polls(self, start, step, end):
        t = start
        while t <= end:
            if not any(a <= t <= b for a, b in self.stall):
                self.add(t, '.main .poll')
            t += step
    def ticks(self, start, step, end):
        t = start
        while t <= end:
            self.add(t, '.main .tick'); t += step
    def table(self):
        self.ev.sort(key=lambda e: (e[0], e[1]))
        return self.ev
    def index(self, t, what):
        for i, e in enumerate(self.ev):
            if e[0] == t and what(e): return i
        raise Exception((self.name, t))

def lean(dev, name, typ):
    rows = [f'({t * 100000}, {op}, [{out}])' for t, _, op, out in dev.table()]
    lines, cur = [], ''
    for r in rows:
        if len(cur) + len(r) > 140:
            lines.append(cur); cur = ''
        cur += ('' if not cur else ' ') + r + ','
    lines.append(cur.rstrip(','))
    return f'def {name} : List {typ} := [\n  ' + '\n  '.join(lines) + ']\n'

def via(src, dst):
    res = []
    for t, _, op, out in src.ev:
        res.append(dst.index(t + BYTE, lambda e: e[2].startswith('.usart (some')) if '.tdr' in out else 0)
    while res and res[-1] == 0: res.pop()
    return res

def good():
    t15, t35 = 170, 386
    req = [9, 6, 0, 7, 0xAA, 0xBB]
    f = frame(req)
    assert f[-2:] == [0x07, 0x90]
    M, A, B = Dev('M', True), Dev('A', False), Dev('B', False)
    M.add(0, '.main (.request bdReq)', '.lib (.ret .sendToQueue)')
    M.send(20, f, 'bdFrame')
    for d in (A, B):
        l = d.hear(20, f); d.silence(l, t15, t35)
    a = l + t35
    A.add(a + 2, '.main .poll'); A.send(a + 4, f, 'bdFrame')
    for d in (M, B):
        l = d.hear(a + 4, f); d.silence(l, t15, t35)
    end = l + t35 + 100
    M.add(l + t15 - 1, '.main .poll')
    M.add(l + t35 + 2, '.main .poll', '.lib (.event (.hregWrite 9 7 1))')
    mend = 50 + 96 * ((end - 50) // 96)
    M.polls(60, 40, mend); M.ticks(50, 96, mend); A.polls(15, 40, end); B.polls(25, 40, end)
    return M, A, B

def late():
    t15, t35 = 990, 2020
    data = [0, 0, 0x0A, 6, 0, 7, 0xAA, 0xBB]
    for x in range(65536):
        if crc([9, 3, 8, x >> 8, x & 255]) == 0xFFFF:
            data[0:2] = [x >> 8, x & 255]
    print('reg0', hex(data[0] * 256 + data[1]), file=sys.stderr)
    req = frame([9, 3, 0, 0, 0, 4])
    resp = frame([9, 3, 8] + data)
    own = frame([0x0A, 6, 0, 7, 0xAA, 0xBB])
    assert resp[5:] == own
    M, A, B = Dev('M', True), Dev('A', False), Dev('B', False)
    M.add(0, '.main (.request lvReq)', '.lib (.ret .sendToQueue)')
    M.send(100, req, str(req))
    for d in (A, B):
        l = d.hear(100, req); d.silence(l, t15, t35)
    a = l + t35
    A.add(a + 2, '.main .poll'); A.send(a + 4, resp, str(resp))
    for d in (M, B):
        l = d.hear(a + 4, resp); d.silence(l, t15, t35)
    regs = [data[2 * i] * 256 + data[2 * i + 1] for i in range(4)]
    M.add(l + t35 + 2, '.main .poll', ', '.join(f'.lib (.event (.hregRead 9 {i} {v}))' for i, v in enumerate(regs)))
    b = l + t35
    B.add(b + 6, '.main .poll'); B.send(b + 16, own, str(own))
    for d in (M, A):
        l = d.hear(b + 16, own); d.silence(l, t15, t35)
    end = l + t35 + 1200
    mend = 1150 * (end // 1150)
    M.polls(500, 500, mend); M.ticks(1150, 1150, mend); A.polls(50, 500, end); B.polls(100, 500, end)
    return M, A, B

if __name__ == '__main__':
    which = sys.argv[1]
    M, A, B = good() if which == 'lp' else late()
    p = which
    print(f'/-- The master: when, what happens, what is put out. -/\n' + lean(M, p + 'Master', '(Nat × HMOp × List HMOut)'))
    print(f'/-- Slave 9. -/\n' + lean(A, p + 'Slave', '(Nat × HOp × List HOut)'))
    print(f'/-- Slave 10. -/\n' + lean(B, p + 'Other', '(Nat × HOp × List HOut)'))
    st = [('none', M), ('some false', A), ('some true', B)]
    print(f'/-- Where what is written is heard. -/\ndef {p}Via : Option Bool → Option Bool → List Nat')
    for n, s in st:
        for m, d in st:
            if s is not d:
                v = via(s, d)
                if v: print(f'  | {n}, {m} => {v}')
    print('  | _, _ => []')
