/-! The test of the interpreter's version when the package is imported. -/

namespace Gost

/-- Whether `import gostcrypto` goes on after the test of `version_info`, gostcrypto/__init__.py 37-39 (otherwise a
message is printed and `sys.exit()` is called). Versions are pairs of natural numbers. -/
def importGoesOn (major minor : Nat) : Bool := !(major < 3 || minor < 6)

end Gost
