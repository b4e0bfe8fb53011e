# compares the bytes in lean/Verif/Setup/Shipped*.lean with the files of /repo/api/parameters
import os, re
D = '/repo/api/parameters/'
O = os.path.join(os.path.dirname(os.path.abspath(__file__)), '../lean/Verif/Setup/')
def words(name, txt):
    m = re.search(r'def %sWords : List Nat := \[(.*?)\]' % name, txt, re.S)
    n = int(re.search(r'def %s : Bytes := .*take (\d+)' % name, txt).group(1))
    return b''.join(int(x, 16).to_bytes(56, 'little') for x in m.group(1).split(','))[:n]
def same(b, f):
    print(f, b == open(D + f, 'rb').read())
t = open(O + 'ShippedConvFiles.lean').read()
for a, f in [('arToAbarFile', 'ar-to-abar-vk.bin'), ('barToAbarFile', 'bar-to-abar-vk.bin'), ('abarToArFile', 'abar-to-ar-vk.bin'),
             ('abarToBarFile', 'abar-to-bar-vk.bin')]:
    same(words(a, t), f)
x = (6).to_bytes(8, 'little')
for i in range(1, 7):
    t = open(O + 'ShippedXfr%d.lean' % i).read()
    x += (6).to_bytes(8, 'little')
    for j in range(1, 7):
        c = words('xfrFile%d%d' % (i, j), t)
        x += len(c).to_bytes(8, 'little') + c
same(x, 'transfer-vk-specific.bin')
same(words('xfrCommonFile', open(O + 'ShippedXfr.lean').read()), 'transfer-vk-common.bin')
