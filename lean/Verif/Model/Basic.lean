/-!
# Common vocabulary of the model

Python exceptions are values of `Err`; a function that may raise returns `Except Err α`.
-/

namespace E3x

/-- Python exception classes raised by e3x. (`assertion` stands for a failing `assert`; `badZipFile` for the
exceptions `np.load` raises on a file that is not a complete archive.) -/
inductive Err where
  | valueError
  | typeError
  | runtimeError
  | assertion
  | indexError
  | osError
  | keyError
  | badZipFile
  deriving DecidableEq, Repr

end E3x
