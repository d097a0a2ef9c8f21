end VecMath
